/-
C47, C54: which soil layer and which arguments each spring of a Model comes from.
-/
import Verif.Model.Assemble
import Verif.Props.Weight
import Verif.Props.AxialModel
import Verif.Props.Custom
import Verif.Props.PisaShape

namespace OpenPile.Props.Assemble
open OpenPile.Assemble OpenPile.SoilModel OpenPile.Axial OpenPile.Props.AxialModel OpenPile.Spec.Spring

/-! ## Loops that overwrite -/

theorem foldlM_flatMap {σ α κ : Type} (f : σ → κ → Option σ) (g : α → List κ) (L : List α) (s : σ) :
    L.foldlM (fun s a => (g a).foldlM f s) s = (L.flatMap g).foldlM f s := by
  induction L generalizing s with
  | nil => rfl
  | cons a L ih =>
    rw [List.foldlM_cons, List.flatMap_cons, List.foldlM_append]
    congr 1
    funext t
    exact ih t

theorem foldlM_map' {σ α κ : Type} (f : σ → κ → Option σ) (g : α → κ) (L : List α) (s : σ) :
    (L.map g).foldlM f s = L.foldlM (fun s a => f s (g a)) s := by
  induction L generalizing s with
  | nil => rfl
  | cons a L ih =>
    rw [List.map_cons, List.foldlM_cons, List.foldlM_cons]
    congr 1
    funext t
    exact ih t

section overwrite
variable {σ κ α : Type} {f : σ → κ → Option σ} {π : σ → α} {c : κ → Option α}

/-- A component that every step leaves alone or overwrites with `c k`. -/
def Overwrites (f : σ → κ → Option σ) (π : σ → α) (c : κ → Option α) : Prop :=
  ∀ s k s', f s k = some s' → π s' = (c k).getD (π s)

theorem never (h : Overwrites f π c) (L : List κ) (hL : ∀ k ∈ L, c k = none) (s s' : σ)
    (hs : L.foldlM f s = some s') : π s' = π s := by
  induction L generalizing s with
  | nil =>
    cases hs
    rfl
  | cons k L ih =>
    simp only [List.foldlM_cons, Option.bind_eq_bind, Option.bind_eq_some_iff] at hs
    obtain ⟨t, h1, h2⟩ := hs
    rw [ih (fun k hk => hL k (List.mem_cons_of_mem _ hk)) t h2, h s k t h1, hL k (by simp)]
    rfl

theorem stays (h : Overwrites f π c) (v : α) (L : List κ) (hL : ∀ k ∈ L, c k = none ∨ c k = some v)
    (s s' : σ) (hs : L.foldlM f s = some s') (h0 : π s = v) : π s' = v := by
  induction L generalizing s with
  | nil =>
    cases hs
    exact h0
  | cons k L ih =>
    simp only [List.foldlM_cons, Option.bind_eq_bind, Option.bind_eq_some_iff] at hs
    obtain ⟨t, h1, h2⟩ := hs
    refine ih (fun k hk => hL k (List.mem_cons_of_mem _ hk)) t h2 ?_
    rw [h s k t h1]
    rcases hL k (by simp) with e | e <;> rw [e]
    · exact h0
    · rfl

theorem last_wins (h : Overwrites f π c) (v : α) (P Q : List κ) (k : κ) (hk : c k = some v)
    (hQ : ∀ k ∈ Q, c k = none ∨ c k = some v) (s s' : σ)
    (hs : (P ++ k :: Q).foldlM f s = some s') : π s' = v := by
  simp only [List.foldlM_append, List.foldlM_cons, Option.bind_eq_bind, Option.bind_eq_some_iff] at hs
  obtain ⟨t, -, t', h1, h2⟩ := hs
  refine stays h v Q hQ t' s' h2 ?_
  rw [h t k t' h1, hk]
  rfl

/-- Every step is carried out. -/
theorem runs (L : List κ) (s s' : σ) (hs : L.foldlM f s = some s') :
    ∀ k ∈ L, ∃ t t', f t k = some t' := by
  induction L generalizing s with
  | nil => simp
  | cons k L ih =>
    simp only [List.foldlM_cons, Option.bind_eq_bind, Option.bind_eq_some_iff] at hs
    obtain ⟨t, h1, h2⟩ := hs
    intro k' hk'
    rcases List.mem_cons.1 hk' with rfl | hk'
    · exact ⟨s, t, h1⟩
    · exact ih t h2 k' hk'

end overwrite

/-! ## What one step does -/

/-- A call of the loop body. -/
abbrev Call := SoilLayer × Row × ℕ

/-- The calls in their order. -/
noncomputable def calls (S : Input) : List Call :=
  S.layers.flatMap (fun l => (selected S l).map (fun x => (l, x)))

/-- The loop body for a call. -/
noncomputable def body (S : Input) (env : Draws) (A : Arrays) (k : Call) : Option Arrays :=
  step S env k.1 A k.2

theorem fill_eq (S : Input) (env : Draws) :
    fillArrays S env = (calls S).foldlM (body S env) Arrays.zero := by
  unfold fillArrays calls
  rw [← foldlM_flatMap]
  congr 1
  funext A l
  rw [foldlM_map']
  rfl

variable {S : Input} {env : Draws}

/-- p-y spring written by a call at the given end. -/
noncomputable def cPy (S : Input) (env : Draws) (b : Bool) (l : SoilLayer) (r : Row) (i : ℕ) :
    Option Curve :=
  match l.lateral with
  | none => none
  | some m => if m.signature.1 && S.distributedLateral then
      pyNode S l m r b (env.py l.top i b) else none

/-- m-t spring written by a call. -/
noncomputable def cMt (S : Input) (env : Draws) (b : Bool) (l : SoilLayer) (r : Row) (i : ℕ) :
    Option Table :=
  match l.lateral with
  | none => none
  | some m => if m.signature.2.2.1 && S.distributedMoment then
      mtNode S l m r b (env.mt l.top i b) else none

/-- t-z spring written by a call. -/
noncomputable def cTz (S : Input) (env : Draws) (b : Bool) (l : SoilLayer) (r : Row) (i : ℕ) :
    Option Curve :=
  match l.axial with
  | none => none
  | some m => if S.distributedAxial then tzNode S l m r b (env.tz l.top i b) else none

/-- Q-z spring written by a call. -/
noncomputable def cQz (S : Input) (env : Draws) (l : SoilLayer) (r : Row) (i : ℕ) : Option Curve :=
  match l.axial with
  | none => none
  | some m => if tipIn S l && S.baseAxial then qzTip S l m r (env.qz l.top i) else none

/-- Hb spring written by a call. -/
noncomputable def cHb (S : Input) (l : SoilLayer) (r : Row) : Option Curve :=
  match l.lateral with
  | none => none
  | some m => if tipIn S l && (m.signature.2.1 && S.baseShear) then hbTip S l m r else none

/-- Mb spring written by a call. -/
noncomputable def cMb (S : Input) (l : SoilLayer) (r : Row) : Option Curve :=
  match l.lateral with
  | none => none
  | some m => if tipIn S l && (m.signature.2.2.2 && S.baseMoment) then mbTip S l m r else none

theorem axialStep_eq {l : SoilLayer} {r : Row} {i : ℕ} {A A' : Arrays}
    (h : axialStep S env l r i A = some A') :
    A'.py = A.py ∧ A'.mt = A.mt ∧ A'.hb = A.hb ∧ A'.mb = A.mb ∧
      (∀ j b, A'.tz j b = if j = i then (cTz S env b l r i).getD (A.tz j b) else A.tz j b) ∧
      A'.qz = (cQz S env l r i).getD A.qz ∧
      (∀ m, l.axial = some m → S.distributedAxial = true → ∀ b, (cTz S env b l r i).isSome) ∧
      (∀ m, l.axial = some m → (tipIn S l && S.baseAxial) = true → (cQz S env l r i).isSome) := by
  unfold axialStep at h
  unfold cTz cQz
  cases hm : l.axial with
  | none =>
    rw [hm] at h
    cases h
    simp
  | some m =>
    rw [hm] at h
    cases h1 : S.distributedAxial <;> cases h2 : (tipIn S l && S.baseAxial) <;>
      simp only [h1, h2, Bool.false_eq_true, if_false, if_true, Option.pure_def, Option.bind_eq_bind,
        Option.bind_some, Option.some.injEq, Option.bind_eq_some_iff] at h ⊢
    · subst h
      simp
    · obtain ⟨q, hq, rfl⟩ := h
      simp [hq]
    · obtain ⟨t, ht, b, hb, rfl⟩ := h
      simp only [setBoth, true_and]
      refine ⟨fun j b' => ?_, ?_⟩
      · cases b' <;> simp [ht, hb]
      · simp only [reduceCtorEq, Option.getD_none, true_and]
        refine ⟨fun m' e _ b' => ?_, by simp⟩
        cases b' <;> simp [ht, hb]
    · obtain ⟨t, ht, b, hb, q, hq, rfl⟩ := h
      simp only [setBoth, true_and]
      refine ⟨fun j b' => ?_, ?_⟩
      · cases b' <;> simp [ht, hb]
      · simp only [hq, Option.getD_some, true_and]
        refine ⟨fun m' e _ b' => ?_, by simp⟩
        cases b' <;> simp [ht, hb]

theorem pyStep_eq {l : SoilLayer} {m : SoilModel.Model} {r : Row} {i : ℕ} {A A' : Arrays}
    (hm : l.lateral = some m) (h : pyStep S env l m r i A = some A') :
    A' = { A with py := A'.py } ∧
      (∀ j b, A'.py j b = if j = i then (cPy S env b l r i).getD (A.py j b) else A.py j b) ∧
      ((m.signature.1 && S.distributedLateral) = true → ∀ b, (cPy S env b l r i).isSome) := by
  unfold pyStep at h
  unfold cPy
  rw [hm]
  cases hc : (m.signature.1 && S.distributedLateral)
  · rw [hc] at h
    cases h
    simp [hc]
  · simp only [hc, if_true, Option.pure_def, Option.bind_eq_bind, Option.bind_eq_some_iff,
      Option.some.injEq] at h ⊢
    obtain ⟨t, ht, b, hb, rfl⟩ := h
    refine ⟨rfl, fun j b' => ?_, fun _ b' => ?_⟩ <;> cases b' <;> simp [ht, hb, setBoth]

theorem mtStep_eq {l : SoilLayer} {m : SoilModel.Model} {r : Row} {i : ℕ} {A A' : Arrays}
    (hm : l.lateral = some m) (h : mtStep S env l m r i A = some A') :
    A' = { A with mt := A'.mt } ∧
      (∀ j b, A'.mt j b = if j = i then (cMt S env b l r i).getD (A.mt j b) else A.mt j b) ∧
      ((m.signature.2.2.1 && S.distributedMoment) = true → ∀ b, (cMt S env b l r i).isSome) := by
  unfold mtStep at h
  unfold cMt
  rw [hm]
  cases hc : (m.signature.2.2.1 && S.distributedMoment)
  · rw [hc] at h
    cases h
    simp [hc]
  · simp only [hc, if_true, Option.pure_def, Option.bind_eq_bind, Option.bind_eq_some_iff,
      Option.some.injEq] at h ⊢
    obtain ⟨t, ht, b, hb, rfl⟩ := h
    refine ⟨rfl, fun j b' => ?_, fun _ b' => ?_⟩ <;> cases b' <;> simp [ht, hb, setBoth]

theorem hbStep_eq {l : SoilLayer} {m : SoilModel.Model} {r : Row} {A A' : Arrays}
    (hm : l.lateral = some m) (h : hbStep S l m r A = some A') :
    A' = { A with hb := (cHb S l r).getD A.hb } ∧
      ((tipIn S l && (m.signature.2.1 && S.baseShear)) = true → (cHb S l r).isSome) := by
  unfold hbStep at h
  unfold cHb
  rw [hm]
  cases hc : (tipIn S l && (m.signature.2.1 && S.baseShear))
  · rw [hc] at h
    cases h
    simp [hc]
  · simp only [hc, if_true, Option.pure_def, Option.bind_eq_bind, Option.bind_eq_some_iff,
      Option.some.injEq] at h ⊢
    obtain ⟨t, ht, rfl⟩ := h
    simp [ht]

theorem mbStep_eq {l : SoilLayer} {m : SoilModel.Model} {r : Row} {A A' : Arrays}
    (hm : l.lateral = some m) (h : mbStep S l m r A = some A') :
    A' = { A with mb := (cMb S l r).getD A.mb } ∧
      ((tipIn S l && (m.signature.2.2.2 && S.baseMoment)) = true → (cMb S l r).isSome) := by
  unfold mbStep at h
  unfold cMb
  rw [hm]
  cases hc : (tipIn S l && (m.signature.2.2.2 && S.baseMoment))
  · rw [hc] at h
    cases h
    simp [hc]
  · simp only [hc, if_true, Option.pure_def, Option.bind_eq_bind, Option.bind_eq_some_iff,
      Option.some.injEq] at h ⊢
    obtain ⟨t, ht, rfl⟩ := h
    simp [ht]

/-- What is known after a call that succeeds. -/
structure StepFacts (S : Input) (env : Draws) (l : SoilLayer) (r : Row) (i : ℕ) (A A' : Arrays) : Prop where
  py : ∀ j b, A'.py j b = if j = i then (cPy S env b l r i).getD (A.py j b) else A.py j b
  mt : ∀ j b, A'.mt j b = if j = i then (cMt S env b l r i).getD (A.mt j b) else A.mt j b
  tz : ∀ j b, A'.tz j b = if j = i then (cTz S env b l r i).getD (A.tz j b) else A.tz j b
  hb : A'.hb = (cHb S l r).getD A.hb
  mb : A'.mb = (cMb S l r).getD A.mb
  qz : A'.qz = (cQz S env l r i).getD A.qz
  hasPy : ∀ m, l.lateral = some m → (m.signature.1 && S.distributedLateral) = true →
    ∀ b, (cPy S env b l r i).isSome
  hasMt : ∀ m, l.lateral = some m → (m.signature.2.2.1 && S.distributedMoment) = true →
    ∀ b, (cMt S env b l r i).isSome
  hasTz : ∀ m, l.axial = some m → S.distributedAxial = true → ∀ b, (cTz S env b l r i).isSome
  hasHb : ∀ m, l.lateral = some m → (tipIn S l && (m.signature.2.1 && S.baseShear)) = true →
    (cHb S l r).isSome
  hasMb : ∀ m, l.lateral = some m → (tipIn S l && (m.signature.2.2.2 && S.baseMoment)) = true →
    (cMb S l r).isSome
  hasQz : ∀ m, l.axial = some m → (tipIn S l && S.baseAxial) = true → (cQz S env l r i).isSome

theorem step_facts {l : SoilLayer} {r : Row} {i : ℕ} {A A' : Arrays}
    (h : step S env l A (r, i) = some A') : StepFacts S env l r i A A' := by
  unfold step at h
  simp only [Option.bind_eq_bind, Option.bind_eq_some_iff] at h
  obtain ⟨A1, h1, h2⟩ := h
  obtain ⟨e1, e2, e3, e4, e5, e6, e7, e8⟩ := axialStep_eq h1
  unfold lateralStep at h2
  cases hm : l.lateral with
  | none =>
    rw [hm] at h2
    cases h2
    exact ⟨by simp [cPy, hm, e1], by simp [cMt, hm, e2], e5, by simp [cHb, hm, e3],
      by simp [cMb, hm, e4], e6, by simp [hm], by simp [hm], e7, by simp [hm], by simp [hm], e8⟩
  | some m =>
    rw [hm] at h2
    simp only [Option.bind_eq_bind, Option.bind_eq_some_iff] at h2
    obtain ⟨A2, g1, A3, g2, A4, g3, g4⟩ := h2
    obtain ⟨p1, p2, p3⟩ := pyStep_eq hm g1
    obtain ⟨q1, q2, q3⟩ := mtStep_eq hm g2
    obtain ⟨r1, r2⟩ := hbStep_eq hm g3
    obtain ⟨s1, s2⟩ := mbStep_eq hm g4
    have x1 : A'.py = A2.py := by rw [s1, r1, q1]
    have x2 : A'.mt = A3.mt := by rw [s1, r1]
    have x2' : A2.mt = A1.mt := by rw [p1]
    have x3 : A'.tz = A1.tz := by rw [s1, r1, q1, p1]
    have x4 : A'.hb = (cHb S l r).getD A3.hb := by rw [s1, r1]
    have x4' : A3.hb = A1.hb := by rw [q1, p1]
    have x5 : A'.mb = (cMb S l r).getD A4.mb := by rw [s1]
    have x5' : A4.mb = A1.mb := by rw [r1, q1, p1]
    have x6 : A'.qz = A1.qz := by rw [s1, r1, q1, p1]
    refine ⟨?_, ?_, ?_, ?_, ?_, ?_, ?_, ?_, e7, ?_, ?_, e8⟩
    · rw [x1, ← e1]
      exact p2
    · rw [x2, ← e2, ← x2']
      exact q2
    · rw [x3]
      exact e5
    · rw [x4, x4', e3]
    · rw [x5, x5', e4]
    · rw [x6]
      exact e6
    · intro m' hm'
      rw [hm, Option.some.injEq] at hm'
      subst hm'
      exact p3
    · intro m' hm'
      rw [hm, Option.some.injEq] at hm'
      subst hm'
      exact q3
    · intro m' hm'
      rw [hm, Option.some.injEq] at hm'
      subst hm'
      exact r2
    · intro m' hm'
      rw [hm, Option.some.injEq] at hm'
      subst hm'
      exact s2

/-! ## Which layer owns an element -/

/-- The layers that contain an element. -/
noncomputable def owners (S : Input) (r : Row) : List SoilLayer :=
  S.layers.filter (fun l => decide (r.top ≤ l.top ∧ l.bottom ≤ r.bottom))

theorem mem_selected {l : SoilLayer} {x : Row × ℕ} :
    x ∈ selected S l ↔ S.rows[x.2]? = some x.1 ∧ x.1.top ≤ l.top ∧ l.bottom ≤ x.1.bottom := by
  unfold selected
  rw [List.mem_filter, List.mem_zipIdx_iff_getElem?]
  simp

theorem mem_calls {l : SoilLayer} {r : Row} {i : ℕ} :
    (l, r, i) ∈ calls S ↔ S.rows[i]? = some r ∧ l ∈ owners S r := by
  unfold calls owners
  simp only [List.mem_flatMap, List.mem_map, Prod.mk.injEq, mem_selected, List.mem_filter,
    decide_eq_true_eq]
  constructor
  · rintro ⟨l', h1, x, h2, rfl, rfl⟩
    exact ⟨h2.1, h1, h2.2⟩
  · rintro ⟨h1, h2, h3⟩
    exact ⟨l, h2, (r, i), ⟨h1, h3⟩, rfl, rfl⟩

theorem same_wins {σ κ α : Type} {f : σ → κ → Option σ} {π : σ → α} {c : κ → Option α}
    (h : Overwrites f π c) (v : α) (L : List κ) (hL : ∀ k ∈ L, c k = none ∨ c k = some v)
    (k : κ) (hk : k ∈ L) (hc : c k = some v) (s s' : σ) (hs : L.foldlM f s = some s') : π s' = v := by
  obtain ⟨P, Q, rfl⟩ := List.append_of_mem hk
  exact last_wins h v P Q k hc (fun q hq => hL q (by simp [hq])) s s' hs

/-- A component of an element: the value written by its only owner, or the initial zeros. -/
theorem element_component {α : Type} (π : Arrays → α) (j : ℕ) (g : SoilLayer → Row → ℕ → Option α)
    (hπ : ∀ l r i A A', step S env l A (r, i) = some A' →
      π A' = if j = i then (g l r i).getD (π A) else π A)
    {A : Arrays} (hA : fillArrays S env = some A) {r : Row} (hr : S.rows[j]? = some r) :
    (∀ l v, owners S r = [l] → g l r j = some v → π A = v) ∧
      ((∀ l ∈ owners S r, g l r j = none) → π A = π Arrays.zero) := by
  rw [fill_eq] at hA
  have ho : Overwrites (body S env) π
      (fun k : Call => if j = k.2.2 then g k.1 k.2.1 k.2.2 else none) := by
    intro s k s' h
    rw [hπ k.1 k.2.1 k.2.2 s s' h]
    simp only
    split_ifs <;> rfl
  constructor
  · intro l v hl hv
    refine same_wins ho v (calls S) ?_ (l, r, j) (mem_calls.2 ⟨hr, by rw [hl]; exact List.mem_singleton.2 rfl⟩)
      (by simpa using hv) _ _ hA
    rintro ⟨l', r', i⟩ hk
    obtain ⟨h1, h2⟩ := mem_calls.1 hk
    simp only
    split_ifs with hji
    · subst hji
      rw [hr, Option.some.injEq] at h1
      subst h1
      rw [hl, List.mem_singleton] at h2
      subst h2
      exact Or.inr hv
    · exact Or.inl rfl
  · intro hn
    refine never ho (calls S) ?_ _ _ hA
    rintro ⟨l', r', i⟩ hk
    obtain ⟨h1, h2⟩ := mem_calls.1 hk
    simp only
    split_ifs with hji
    · subst hji
      rw [hr, Option.some.injEq] at h1
      subst h1
      exact hn l' h2
    · rfl

/-- Every call of the loop body succeeds when the springs are created. -/
theorem call_facts {A : Arrays} (hA : fillArrays S env = some A) {l : SoilLayer} {r : Row} {i : ℕ}
    (hr : S.rows[i]? = some r) (hl : l ∈ owners S r) : ∃ B B', StepFacts S env l r i B B' := by
  rw [fill_eq] at hA
  obtain ⟨B, B', h⟩ := runs _ _ _ hA (l, r, i) (mem_calls.2 ⟨hr, hl⟩)
  exact ⟨B, B', step_facts h⟩

theorem create_some {A : Arrays} (hA : createSprings S env = some A) :
    ∃ B, fillArrays S env = some B ∧
      A = { B with tz := fun i b => negate (B.tz i b), qz := negate B.qz } := by
  unfold createSprings at hA
  simp only [Option.bind_eq_bind, Option.bind_eq_some_iff, Option.pure_def, Option.some.injEq] at hA
  obtain ⟨B, h1, h2⟩ := hA
  exact ⟨B, h1, h2.symm⟩

theorem store_some {c d : Curve} (h : store c = some d) : d = c ∧ c.length = 15 := by
  unfold store at h
  split_ifs at h with h1
  cases h
  exact ⟨rfl, h1⟩

theorem storeTable_some {c d : Table} (h : storeTable c = some d) :
    d = c ∧ c.length = 15 ∧ ∀ r ∈ c, r.length = 15 := by
  unfold storeTable at h
  split_ifs at h with h1
  cases h
  exact ⟨rfl, h1⟩

/-- p-y springs of an element inside one layer: at both ends, the curve of the lateral model of that layer
for the stress, depth, position in the layer, width and submergence at that end; zeros if the layer has no
lateral model or distributed lateral springs are switched off. -/
theorem C54_py {A : Arrays} (hA : createSprings S env = some A) {j : ℕ} {r : Row}
    (hr : S.rows[j]? = some r) {l : SoilLayer} (hl : owners S r = [l]) (b : Bool) :
    (∀ m, l.lateral = some m → S.distributedLateral = true →
      ∃ sig s, (if b then r.sigBottom else r.sigTop) = some sig ∧ r.sec = some s ∧
        m.py { sig := sig, X := |(if b then r.bottom else r.top) - S.ground|, height := l.top - l.bottom,
               depth := l.top - (if b then r.bottom else r.top), D := s.diameter,
               L := S.ground - S.tip,
               belowWater := decide ((if b then r.bottom else r.top) ≤ S.water), ymax := 0, len := 15 }
          (env.py l.top j b) = some (A.py j b)) ∧
    (l.lateral = none ∨ S.distributedLateral = false → A.py j b = List.replicate 15 (0, 0)) := by
  obtain ⟨B, hB, rfl⟩ := create_some hA
  have hmem : l ∈ owners S r := by
    rw [hl]
    exact List.mem_singleton.2 rfl
  obtain ⟨h1, h2⟩ := element_component (fun A => A.py j b) j (fun l r i => cPy S env b l r i)
    (fun l r i A A' h => (step_facts h).py j b) hB hr
  obtain ⟨_, _, hf⟩ := call_facts hB hr hmem
  constructor
  · intro m hm hd
    have hsig : m.signature.1 = true := by cases m <;> rfl
    obtain ⟨v, hv⟩ := Option.isSome_iff_exists.1 (hf.hasPy m hm (by rw [hsig, hd]; rfl) b)
    rw [h1 l v hl hv]
    simp only [cPy, hm, hsig, hd, Bool.and_self, if_true, pyNode, nodeArgs, Option.bind_eq_bind,
      Option.bind_eq_some_iff, Option.pure_def, Option.some.injEq] at hv
    obtain ⟨a, ⟨sig, e1, s, e2, rfl⟩, c, e3, e4⟩ := hv
    obtain ⟨rfl, -⟩ := store_some e4
    exact ⟨sig, s, e1, e2, e3⟩
  · intro h
    refine h2 ?_
    intro l' hl'
    rw [hl, List.mem_singleton] at hl'
    subst hl'
    unfold cPy
    rcases h with h | h
    · rw [h]
    · cases l'.lateral <;> simp [h]

/-- m-t springs of an element inside one layer. -/
theorem C54_mt {A : Arrays} (hA : createSprings S env = some A) {j : ℕ} {r : Row}
    (hr : S.rows[j]? = some r) {l : SoilLayer} (hl : owners S r = [l]) (b : Bool) :
    (∀ m, l.lateral = some m → m.signature.2.2.1 = true → S.distributedMoment = true →
      ∃ sig s, (if b then r.sigBottom else r.sigTop) = some sig ∧ r.sec = some s ∧
        m.mt { sig := sig, X := |(if b then r.bottom else r.top) - S.ground|, height := l.top - l.bottom,
               depth := l.top - (if b then r.bottom else r.top), D := s.diameter,
               L := S.ground - S.tip,
               belowWater := decide ((if b then r.bottom else r.top) ≤ S.water), ymax := 0, len := 15 }
          (env.mt l.top j b) = some (A.mt j b)) ∧
    (l.lateral = none ∨ S.distributedMoment = false ∨ (∃ m, l.lateral = some m ∧ m.signature.2.2.1 = false) →
      A.mt j b = List.replicate 15 (List.replicate 15 (0, 0))) := by
  obtain ⟨B, hB, rfl⟩ := create_some hA
  have hmem : l ∈ owners S r := by
    rw [hl]
    exact List.mem_singleton.2 rfl
  obtain ⟨h1, h2⟩ := element_component (fun A => A.mt j b) j (fun l r i => cMt S env b l r i)
    (fun l r i A A' h => (step_facts h).mt j b) hB hr
  obtain ⟨_, _, hf⟩ := call_facts hB hr hmem
  constructor
  · intro m hm hsig hd
    obtain ⟨v, hv⟩ := Option.isSome_iff_exists.1 (hf.hasMt m hm (by rw [hsig, hd]; rfl) b)
    rw [h1 l v hl hv]
    simp only [cMt, hm, hsig, hd, Bool.and_self, if_true, mtNode, nodeArgs, Option.bind_eq_bind,
      Option.bind_eq_some_iff, Option.pure_def, Option.some.injEq] at hv
    obtain ⟨a, ⟨sig, e1, s, e2, rfl⟩, c, e3, e4⟩ := hv
    obtain ⟨rfl, -⟩ := storeTable_some e4
    exact ⟨sig, s, e1, e2, e3⟩
  · intro h
    refine h2 ?_
    intro l' hl'
    rw [hl, List.mem_singleton] at hl'
    subst hl'
    unfold cMt
    rcases h with h | h | ⟨m, h, h'⟩
    · rw [h]
    · cases l'.lateral <;> simp [h]
    · simp [h, h']

theorem negate_zeros : negate zeros = zeros := by
  simp [negate, zeros]

/-- t-z springs of an element inside one layer: the curve of the axial model of that layer, with displacement
and resistance of opposite sign. -/
theorem C54_tz {A : Arrays} (hA : createSprings S env = some A) {j : ℕ} {r : Row}
    (hr : S.rows[j]? = some r) {l : SoilLayer} (hl : owners S r = [l]) (b : Bool) :
    (∀ m, l.axial = some (.clay m) → S.distributedAxial = true →
      ∃ sig s c, (if b then r.sigBottom else r.sigTop) = some sig ∧ r.sec = some s ∧
        m.tzSpring (s.diameter * Real.pi) (s.diameter * Real.pi) sig (l.top - l.bottom)
          (l.top - (if b then r.bottom else r.top)) s.diameter 15 (env.tz l.top j b).tzDraws
          (env.tz l.top j b).argsort = some c ∧
        A.tz j b = (c.1.zip c.2).map (fun q => (-q.1, -q.2))) ∧
    (∀ m, l.axial = some (.sand m) → S.distributedAxial = true →
      ∃ sig s c, (if b then r.sigBottom else r.sigTop) = some sig ∧ r.sec = some s ∧
        m.tzSpring (s.diameter * Real.pi) (s.diameter * Real.pi) sig (l.top - l.bottom)
          (l.top - (if b then r.bottom else r.top)) 15 (env.tz l.top j b).tzDraws
          (env.tz l.top j b).argsort = some c ∧
        A.tz j b = (c.1.zip c.2).map (fun q => (-q.1, -q.2))) ∧
    (l.axial = none ∨ S.distributedAxial = false → A.tz j b = List.replicate 15 (0, 0)) := by
  obtain ⟨B, hB, rfl⟩ := create_some hA
  have hmem : l ∈ owners S r := by
    rw [hl]
    exact List.mem_singleton.2 rfl
  obtain ⟨h1, h2⟩ := element_component (fun A => A.tz j b) j (fun l r i => cTz S env b l r i)
    (fun l r i A A' h => (step_facts h).tz j b) hB hr
  obtain ⟨_, _, hf⟩ := call_facts hB hr hmem
  refine ⟨?_, ?_, ?_⟩
  · intro m hm hd
    obtain ⟨v, hv⟩ := Option.isSome_iff_exists.1 (hf.hasTz _ hm hd b)
    simp only
    rw [h1 l v hl hv]
    simp only [cTz, hm, hd, if_true, tzNode, Option.bind_eq_bind,
      Option.bind_eq_some_iff] at hv
    obtain ⟨sig, e1, s, e2, c, e3, e4⟩ := hv
    obtain ⟨rfl, -⟩ := store_some e4
    exact ⟨sig, s, c, e1, e2, e3, rfl⟩
  · intro m hm hd
    obtain ⟨v, hv⟩ := Option.isSome_iff_exists.1 (hf.hasTz _ hm hd b)
    simp only
    rw [h1 l v hl hv]
    simp only [cTz, hm, hd, if_true, tzNode, Option.bind_eq_bind,
      Option.bind_eq_some_iff] at hv
    obtain ⟨sig, e1, s, e2, c, e3, e4⟩ := hv
    obtain ⟨rfl, -⟩ := store_some e4
    exact ⟨sig, s, c, e1, e2, e3, rfl⟩
  · intro h
    simp only
    rw [h2 ?_]
    · exact negate_zeros
    · intro l' hl'
      rw [hl, List.mem_singleton] at hl'
      subst hl'
      unfold cTz
      rcases h with h | h
      · rw [h]
      · cases l'.axial <;> simp [h]

/-- An element that no layer contains, in particular one above ground, has no springs. -/
theorem C54_outside {A : Arrays} (hA : createSprings S env = some A) {j : ℕ} {r : Row}
    (hr : S.rows[j]? = some r) (hl : owners S r = []) (b : Bool) :
    A.py j b = List.replicate 15 (0, 0) ∧ A.tz j b = List.replicate 15 (0, 0) ∧
      A.mt j b = List.replicate 15 (List.replicate 15 (0, 0)) := by
  obtain ⟨B, hB, rfl⟩ := create_some hA
  obtain ⟨-, h1⟩ := element_component (fun A => A.py j b) j (fun l r i => cPy S env b l r i)
    (fun l r i A A' h => (step_facts h).py j b) hB hr
  obtain ⟨-, h2⟩ := element_component (fun A => A.tz j b) j (fun l r i => cTz S env b l r i)
    (fun l r i A A' h => (step_facts h).tz j b) hB hr
  obtain ⟨-, h3⟩ := element_component (fun A => A.mt j b) j (fun l r i => cMt S env b l r i)
    (fun l r i A A' h => (step_facts h).mt j b) hB hr
  refine ⟨h1 (by simp [hl]), ?_, h3 (by simp [hl])⟩
  simp only
  rw [h2 (by simp [hl])]
  exact negate_zeros

/-! ## Base springs -/

/-- The last element ends at the pile tip, and no element starts below its top. -/
structure TipRow (S : Input) (r : Row) : Prop where
  last : S.rows.getLast? = some r
  tip : r.bottom = S.tip
  lowest : ∀ r' ∈ S.rows, r.top ≤ r'.top

theorem tip_owner {r : Row} (ht : TipRow S r) {l : SoilLayer} {r' : Row} {i : ℕ}
    (hc : (l, r', i) ∈ calls S) (h : tipIn S l = true) : l ∈ owners S r := by
  obtain ⟨h1, h2⟩ := mem_calls.1 hc
  unfold owners at h2 ⊢
  rw [List.mem_filter, decide_eq_true_eq] at h2 ⊢
  unfold tipIn at h
  rw [decide_eq_true_eq] at h
  refine ⟨h2.1, (ht.lowest r' (List.mem_of_getElem? h1)).trans h2.2.1, ?_⟩
  rw [ht.tip]
  exact h.2

theorem selected_last {r : Row} (ht : TipRow S r) {l : SoilLayer} (hl : l ∈ owners S r) :
    ∃ P, selected S l = P ++ [(r, S.rows.length - 1)] := by
  obtain ⟨R, hR⟩ : ∃ R, S.rows = R ++ [r] := by
    rcases List.eq_nil_or_concat S.rows with h | ⟨R, a, h⟩
    · have := ht.last
      rw [h] at this
      cases this
    · rw [List.concat_eq_append] at h
      have := ht.last
      rw [h, List.getLast?_concat, Option.some.injEq] at this
      subst this
      exact ⟨R, h⟩
  unfold owners at hl
  rw [List.mem_filter, decide_eq_true_eq] at hl
  unfold selected
  rw [hR, List.zipIdx_append, List.filter_append]
  refine ⟨R.zipIdx.filter (fun x => decide (x.1.top ≤ l.top ∧ x.1.bottom ≥ l.bottom)), ?_⟩
  congr 1
  simp [hl.2.1, hl.2.2]

theorem tip_component {α : Type} (π : Arrays → α) (g : SoilLayer → Row → ℕ → Option α)
    (hg : ∀ l r i, tipIn S l = false → g l r i = none)
    (hπ : ∀ l r i A A', step S env l A (r, i) = some A' → π A' = (g l r i).getD (π A))
    {A : Arrays} (hA : fillArrays S env = some A) {r : Row} (ht : TipRow S r) {l : SoilLayer}
    (hl : owners S r = [l]) :
    (∀ v, g l r (S.rows.length - 1) = some v → π A = v) ∧
      ((∀ r' i, g l r' i = none) → π A = π Arrays.zero) := by
  rw [fill_eq] at hA
  have ho : Overwrites (body S env) π (fun k : Call => g k.1 k.2.1 k.2.2) :=
    fun s k s' h => hπ k.1 k.2.1 k.2.2 s s' h
  have hmem : l ∈ owners S r := by
    rw [hl]
    exact List.mem_singleton.2 rfl
  constructor
  · intro v hv
    obtain ⟨P, hP⟩ := selected_last ht hmem
    have hlm : l ∈ S.layers := (List.mem_filter.1 hmem).1
    obtain ⟨L1, L2, hL⟩ := List.append_of_mem hlm
    have hdec : decide (r.top ≤ l.top ∧ l.bottom ≤ r.bottom) = true := (List.mem_filter.1 hmem).2
    have hnil : L2.filter (fun l => decide (r.top ≤ l.top ∧ l.bottom ≤ r.bottom)) = [] := by
      unfold owners at hl
      rw [hL, List.filter_append, List.filter_cons_of_pos
        (p := fun l : SoilLayer => decide (r.top ≤ l.top ∧ l.bottom ≤ r.bottom)) hdec] at hl
      have := congrArg List.length hl
      simp only [List.length_append, List.length_cons, List.length_nil] at this
      exact List.length_eq_zero_iff.1 (by omega)
    have hcalls : calls S = (L1.flatMap (fun l => (selected S l).map (fun x => (l, x))) ++
        P.map (fun x => (l, x))) ++ (l, r, S.rows.length - 1) ::
          L2.flatMap (fun l => (selected S l).map (fun x => (l, x))) := by
      unfold calls
      rw [hL, List.flatMap_append, List.flatMap_cons, hP]
      simp
    have hA' := hA
    rw [hcalls] at hA'
    refine last_wins ho v _ _ _ hv ?_ _ _ hA'
    rintro ⟨l', r', i⟩ hk
    left
    refine hg l' r' i ?_
    by_contra hcon
    rw [Bool.not_eq_false] at hcon
    have hin : (l', r', i) ∈ calls S := by
      rw [hcalls]
      exact List.mem_append_right _ (List.mem_cons_of_mem _ hk)
    have h1 := tip_owner ht hin hcon
    unfold owners at h1
    have h2 : l' ∈ L2.filter (fun l => decide (r.top ≤ l.top ∧ l.bottom ≤ r.bottom)) := by
      refine List.mem_filter.2 ⟨?_, (List.mem_filter.1 h1).2⟩
      obtain ⟨l'', h3, h4⟩ := List.mem_flatMap.1 hk
      obtain ⟨x, -, h5⟩ := List.mem_map.1 h4
      cases h5
      exact h3
    rw [hnil] at h2
    cases h2
  · intro hn
    refine never ho (calls S) ?_ _ _ hA
    rintro ⟨l', r', i⟩ hk
    simp only
    cases hc : tipIn S l' with
    | false => exact hg l' r' i hc
    | true =>
      have h1 := tip_owner ht hk hc
      rw [hl, List.mem_singleton] at h1
      subst h1
      exact hn r' i

theorem tipIn_owner {r : Row} (ht : TipRow S r) (hp : r.bottom ≤ r.top) {l : SoilLayer}
    (hl : l ∈ owners S r) : tipIn S l = true := by
  unfold owners at hl
  rw [List.mem_filter, decide_eq_true_eq] at hl
  unfold tipIn
  rw [decide_eq_true_eq, ← ht.tip]
  exact ⟨hp.trans hl.2.1, hl.2.2⟩

theorem last_get {r : Row} (ht : TipRow S r) : S.rows[S.rows.length - 1]? = some r := by
  rw [← List.getLast?_eq_getElem?]
  exact ht.last

/-- The Hb spring is the curve of the layer that contains the last element, for the stress at the tip, the
position of the tip in the layer and the width at the tip; all other layers are without effect.  Depth: see
`C47_violated_depth`. -/
theorem C47_hb_partial {A : Arrays} (hA : createSprings S env = some A) {r : Row} (ht : TipRow S r)
    (hp : r.bottom ≤ r.top) {l : SoilLayer} (hl : owners S r = [l]) :
    (∀ m, l.lateral = some m → m.signature.2.1 = true → S.baseShear = true →
      ∃ sig s, r.sigBottom = some sig ∧ r.sec = some s ∧
        m.hb { sig := sig, X := S.ground - S.profileBottom, height := l.top - l.bottom,
               depth := l.top - S.tip, D := s.diameter, L := S.ground - S.tip,
               belowWater := decide (S.tip ≤ S.water), ymax := 0, len := 15 } = some A.hb) ∧
    (l.lateral = none ∨ S.baseShear = false ∨ (∃ m, l.lateral = some m ∧ m.signature.2.1 = false) →
      A.hb = List.replicate 15 (0, 0)) := by
  obtain ⟨B, hB, rfl⟩ := create_some hA
  have hmem : l ∈ owners S r := by
    rw [hl]
    exact List.mem_singleton.2 rfl
  obtain ⟨h1, h2⟩ := tip_component (fun A => A.hb) (fun l r _ => cHb S l r)
    (fun l r i h => by unfold cHb; cases l.lateral <;> simp [h])
    (fun l r i A A' h => (step_facts h).hb) hB ht hl
  obtain ⟨_, _, hf⟩ := call_facts hB (last_get ht) hmem
  have hin := tipIn_owner ht hp hmem
  constructor
  · intro m hm hsig hd
    obtain ⟨v, hv⟩ := Option.isSome_iff_exists.1 (hf.hasHb m hm (by rw [hsig, hd, hin]; rfl))
    simp only
    rw [h1 v hv]
    simp only [cHb, hm, hsig, hd, hin, Bool.and_self, if_true, hbTip, baseArgs, sigTip, ht.last,
      Option.bind_eq_bind, Option.bind_eq_some_iff, Option.pure_def, Option.some.injEq,
      Option.bind_some] at hv
    obtain ⟨a, ⟨sig, e1, s, e2, rfl⟩, c, e3, e4⟩ := hv
    obtain ⟨rfl, -⟩ := store_some e4
    exact ⟨sig, s, e1, e2, e3⟩
  · intro h
    refine h2 ?_
    intro r' i
    unfold cHb
    rcases h with h | h | ⟨m, h, h'⟩
    · rw [h]
    · cases l.lateral <;> simp [h]
    · simp [h, h']

/-- The Mb spring likewise. -/
theorem C47_mb_partial {A : Arrays} (hA : createSprings S env = some A) {r : Row} (ht : TipRow S r)
    (hp : r.bottom ≤ r.top) {l : SoilLayer} (hl : owners S r = [l]) :
    (∀ m, l.lateral = some m → m.signature.2.2.2 = true → S.baseMoment = true →
      ∃ sig s, r.sigBottom = some sig ∧ r.sec = some s ∧
        m.mb { sig := sig, X := S.ground - S.profileBottom, height := l.top - l.bottom,
               depth := l.top - S.tip, D := s.diameter, L := S.ground - S.tip,
               belowWater := decide (S.tip ≤ S.water), ymax := 0, len := 15 } = some A.mb) ∧
    (l.lateral = none ∨ S.baseMoment = false ∨ (∃ m, l.lateral = some m ∧ m.signature.2.2.2 = false) →
      A.mb = List.replicate 15 (0, 0)) := by
  obtain ⟨B, hB, rfl⟩ := create_some hA
  have hmem : l ∈ owners S r := by
    rw [hl]
    exact List.mem_singleton.2 rfl
  obtain ⟨h1, h2⟩ := tip_component (fun A => A.mb) (fun l r _ => cMb S l r)
    (fun l r i h => by unfold cMb; cases l.lateral <;> simp [h])
    (fun l r i A A' h => (step_facts h).mb) hB ht hl
  obtain ⟨_, _, hf⟩ := call_facts hB (last_get ht) hmem
  have hin := tipIn_owner ht hp hmem
  constructor
  · intro m hm hsig hd
    obtain ⟨v, hv⟩ := Option.isSome_iff_exists.1 (hf.hasMb m hm (by rw [hsig, hd, hin]; rfl))
    simp only
    rw [h1 v hv]
    simp only [cMb, hm, hsig, hd, hin, Bool.and_self, if_true, mbTip, baseArgs, sigTip, ht.last,
      Option.bind_eq_bind, Option.bind_eq_some_iff, Option.pure_def, Option.some.injEq,
      Option.bind_some] at hv
    obtain ⟨a, ⟨sig, e1, s, e2, rfl⟩, c, e3, e4⟩ := hv
    obtain ⟨rfl, -⟩ := store_some e4
    exact ⟨sig, s, e1, e2, e3⟩
  · intro h
    refine h2 ?_
    intro r' i
    unfold cMb
    rcases h with h | h | ⟨m, h, h'⟩
    · rw [h]
    · cases l.lateral <;> simp [h]
    · simp [h, h']

/-- The Q-z spring is the curve of the axial model of the layer that contains the last element, with
displacement and resistance of opposite sign. -/
theorem C47_qz {A : Arrays} (hA : createSprings S env = some A) {r : Row} (ht : TipRow S r)
    (hp : r.bottom ≤ r.top) {l : SoilLayer} (hl : owners S r = [l]) :
    (∀ m, l.axial = some (.clay m) → S.baseAxial = true →
      ∃ s c, r.sec = some s ∧
        m.qzSpring S.tipArea S.tipFootprint (l.top - l.bottom) (l.top - S.tip) s.diameter 15
          (env.qz l.top (S.rows.length - 1)).tzDraws (env.qz l.top (S.rows.length - 1)).argsort = some c ∧
        A.qz = (c.1.zip c.2).map (fun q => (-q.1, -q.2))) ∧
    (∀ m, l.axial = some (.sand m) → S.baseAxial = true →
      ∃ sig s c, r.sigBottom = some sig ∧ r.sec = some s ∧
        m.qzSpring S.tipArea S.tipFootprint sig (l.top - l.bottom) (l.top - S.tip) s.diameter 15
          (env.qz l.top (S.rows.length - 1)).tzDraws (env.qz l.top (S.rows.length - 1)).argsort = some c ∧
        A.qz = (c.1.zip c.2).map (fun q => (-q.1, -q.2))) ∧
    (l.axial = none ∨ S.baseAxial = false → A.qz = List.replicate 15 (0, 0)) := by
  obtain ⟨B, hB, rfl⟩ := create_some hA
  have hmem : l ∈ owners S r := by
    rw [hl]
    exact List.mem_singleton.2 rfl
  obtain ⟨h1, h2⟩ := tip_component (fun A => A.qz) (fun l r i => cQz S env l r i)
    (fun l r i h => by unfold cQz; cases l.axial <;> simp [h])
    (fun l r i A A' h => (step_facts h).qz) hB ht hl
  obtain ⟨_, _, hf⟩ := call_facts hB (last_get ht) hmem
  have hin := tipIn_owner ht hp hmem
  refine ⟨?_, ?_, ?_⟩
  · intro m hm hd
    obtain ⟨v, hv⟩ := Option.isSome_iff_exists.1 (hf.hasQz _ hm (by rw [hd, hin]; rfl))
    simp only
    rw [h1 v hv]
    simp only [cQz, hm, hd, hin, Bool.and_self, if_true, qzTip, sigTip, ht.last,
      Option.bind_eq_bind, Option.bind_eq_some_iff, Option.bind_some] at hv
    obtain ⟨sig, e1, s, e2, c, e3, e4⟩ := hv
    obtain ⟨rfl, -⟩ := store_some e4
    exact ⟨s, c, e2, e3, rfl⟩
  · intro m hm hd
    obtain ⟨v, hv⟩ := Option.isSome_iff_exists.1 (hf.hasQz _ hm (by rw [hd, hin]; rfl))
    simp only
    rw [h1 v hv]
    simp only [cQz, hm, hd, hin, Bool.and_self, if_true, qzTip, sigTip, ht.last,
      Option.bind_eq_bind, Option.bind_eq_some_iff, Option.bind_some] at hv
    obtain ⟨sig, e1, s, e2, c, e3, e4⟩ := hv
    obtain ⟨rfl, -⟩ := store_some e4
    exact ⟨sig, s, c, e1, e2, e3, rfl⟩
  · intro h
    simp only
    rw [h2 ?_]
    · exact negate_zeros
    · intro r' i
      unfold cQz
      rcases h with h | h
      · rw [h]
      · cases l.axial <;> simp [h]

/-! ## Order of the layers -/

theorem last_value {σ κ α : Type} {f : σ → κ → Option σ} {π : σ → α} {c : κ → Option α}
    (h : Overwrites f π c) (L : List κ) (s s' : σ) (hs : L.foldlM f s = some s') :
    π s' = (L.filterMap c).getLast?.getD (π s) := by
  induction L generalizing s with
  | nil =>
    cases hs
    rfl
  | cons k L ih =>
    simp only [List.foldlM_cons, Option.bind_eq_bind, Option.bind_eq_some_iff] at hs
    obtain ⟨t, h1, h2⟩ := hs
    rw [ih t h2, h s k t h1]
    cases hc : c k with
    | none => rw [List.filterMap_cons_none hc]; rfl
    | some v => rw [List.filterMap_cons_some hc, List.getLast?_cons]; rfl

theorem flatMap_filter {α β : Type} (p : α → Bool) (h : α → List β) (L : List α)
    (hL : ∀ a ∈ L, p a = false → h a = []) : L.flatMap h = (L.filter p).flatMap h := by
  induction L with
  | nil => rfl
  | cons a L ih =>
    have := ih fun b hb => hL b (List.mem_cons_of_mem _ hb)
    cases hp : p a with
    | false =>
      rw [List.filter_cons_of_neg (by rw [hp]; exact Bool.false_ne_true), List.flatMap_cons,
        hL a (by simp) hp, List.nil_append, this]
    | true => rw [List.filter_cons_of_pos hp, List.flatMap_cons, List.flatMap_cons, this]

/-- A component to which only the owners of one element contribute. -/
theorem owned_component {α : Type} (π : Arrays → α) (c : Call → Option α)
    (hπ : Overwrites (body S env) π c) (r : Row)
    (hc : ∀ l r' i, (l, r', i) ∈ calls S → l ∉ owners S r → c (l, r', i) = none)
    {A : Arrays} (hA : fillArrays S env = some A) :
    π A = ((owners S r).flatMap
      (fun l => (selected S l).filterMap (fun x => c (l, x)))).getLast?.getD (π Arrays.zero) := by
  rw [fill_eq] at hA
  rw [last_value hπ _ _ _ hA]
  congr 2
  unfold calls
  rw [List.filterMap_flatMap]
  have : (fun l => ((selected S l).map (fun x => (l, x))).filterMap c) =
      fun l => (selected S l).filterMap (fun x => c (l, x)) := by
    funext l
    rw [List.filterMap_map]
    rfl
  rw [this]
  refine flatMap_filter _ _ _ fun l hl hp => ?_
  rw [List.filterMap_eq_nil_iff]
  rintro ⟨r', i⟩ hx
  refine hc l r' i (mem_calls.2 ⟨(mem_selected.1 hx).1, ?_⟩) ?_
  · exact List.mem_filter.2 ⟨hl, by simpa using (mem_selected.1 hx).2⟩
  · intro hcon
    rw [(List.mem_filter.1 hcon).2] at hp
    cases hp

theorem axial_success (l : SoilLayer) (r : Row) (i : ℕ) (A A' : Arrays) :
    (axialStep S env l r i A).isSome = (axialStep S env l r i A').isSome := by
  unfold axialStep
  cases l.axial with
  | none => rfl
  | some m =>
    cases S.distributedAxial <;> cases (tipIn S l && S.baseAxial) <;>
      simp only [Bool.false_eq_true, if_false, if_true, Option.pure_def, Option.bind_eq_bind,
        Option.bind_some] <;>
      cases tzNode S l m r false (env.tz l.top i false) <;>
      cases tzNode S l m r true (env.tz l.top i true) <;>
      cases qzTip S l m r (env.qz l.top i) <;> rfl

theorem py_success (l : SoilLayer) (m : SoilModel.Model) (r : Row) (i : ℕ) (A A' : Arrays) :
    (pyStep S env l m r i A).isSome = (pyStep S env l m r i A').isSome := by
  unfold pyStep
  cases (m.signature.1 && S.distributedLateral) <;>
    simp only [Bool.false_eq_true, if_false, if_true] <;>
    cases pyNode S l m r false (env.py l.top i false) <;>
    cases pyNode S l m r true (env.py l.top i true) <;> rfl

theorem mt_success (l : SoilLayer) (m : SoilModel.Model) (r : Row) (i : ℕ) (A A' : Arrays) :
    (mtStep S env l m r i A).isSome = (mtStep S env l m r i A').isSome := by
  unfold mtStep
  cases (m.signature.2.2.1 && S.distributedMoment) <;>
    simp only [Bool.false_eq_true, if_false, if_true] <;>
    cases mtNode S l m r false (env.mt l.top i false) <;>
    cases mtNode S l m r true (env.mt l.top i true) <;> rfl

theorem hb_success (l : SoilLayer) (m : SoilModel.Model) (r : Row) (A A' : Arrays) :
    (hbStep S l m r A).isSome = (hbStep S l m r A').isSome := by
  unfold hbStep
  cases (tipIn S l && (m.signature.2.1 && S.baseShear)) <;>
    simp only [Bool.false_eq_true, if_false, if_true] <;>
    cases hbTip S l m r <;> rfl

theorem mb_success (l : SoilLayer) (m : SoilModel.Model) (r : Row) (A A' : Arrays) :
    (mbStep S l m r A).isSome = (mbStep S l m r A').isSome := by
  unfold mbStep
  cases (tipIn S l && (m.signature.2.2.2 && S.baseMoment)) <;>
    simp only [Bool.false_eq_true, if_false, if_true] <;>
    cases mbTip S l m r <;> rfl

theorem bind_success {σ : Type} {f g : σ → Option σ} (h : ∀ s s', (f s).isSome = (f s').isSome)
    (h' : ∀ s s', (g s).isSome = (g s').isSome) (s s' : σ) :
    ((f s).bind g).isSome = ((f s').bind g).isSome := by
  have := h s s'
  cases e : f s with
  | none =>
    rw [e] at this
    cases e' : f s' with
    | none => rfl
    | some t => rw [e'] at this; cases this
  | some t =>
    rw [e] at this
    cases e' : f s' with
    | none => rw [e'] at this; cases this
    | some t' => exact h' t t'

/-- Whether a call raises does not depend on what was computed before. -/
theorem body_success (k : Call) (A A' : Arrays) :
    (body S env A k).isSome = (body S env A' k).isSome := by
  unfold body step
  refine bind_success (f := fun A => axialStep S env k.1 k.2.1 k.2.2 A)
    (g := fun A => lateralStep S env k.1 k.2.1 k.2.2 A)
    (fun s s' => axial_success _ _ _ s s') (fun s s' => ?_) A A'
  unfold lateralStep
  cases k.1.lateral with
  | none => rfl
  | some m =>
    refine bind_success (f := pyStep S env k.1 m k.2.1 k.2.2) (py_success _ _ _ _) (fun s s' => ?_) s s'
    refine bind_success (f := mtStep S env k.1 m k.2.1 k.2.2) (mt_success _ _ _ _) (fun s s' => ?_) s s'
    exact bind_success (f := hbStep S k.1 m k.2.1) (g := mbStep S k.1 m k.2.1) (hb_success _ _ _) (mb_success _ _ _) s s'

theorem foldlM_success {σ κ : Type} (f : σ → κ → Option σ)
    (h : ∀ k s s', (f s k).isSome = (f s' k).isSome) (L : List κ) (s : σ) :
    (L.foldlM f s).isSome ↔ ∀ k ∈ L, (f s k).isSome := by
  induction L generalizing s with
  | nil => simp
  | cons k L ih =>
    rw [List.foldlM_cons, List.forall_mem_cons]
    cases e : f s k with
    | none => simp
    | some t =>
      simp only [Option.bind_eq_bind, Option.bind_some, Option.isSome_some, true_and]
      rw [ih t]
      exact ⟨fun g k' hk => by rw [h k' s t]; exact g k' hk, fun g k' hk => by rw [h k' t s]; exact g k' hk⟩

/-- The springs do not depend on the order in which the layers are listed, nor does it depend on that order
whether they can be computed, provided no element is inside two layers. -/
theorem C54_order (L : List SoilLayer) (hL : L.Perm S.layers) {r : Row} (ht : TipRow S r)
    (hone : ∀ r ∈ S.rows, (owners S r).length ≤ 1) :
    createSprings { S with layers := L } env = createSprings S env := by
  set T : Input := { S with layers := L } with hT
  have hown : ∀ r ∈ S.rows, owners T r = owners S r := by
    intro r hr
    have hp : (owners T r).Perm (owners S r) := hL.filter _
    have h1 := hone r hr
    match ho : owners S r with
    | [] =>
      rw [ho] at hp
      exact hp.eq_nil
    | [l] =>
      rw [ho] at hp
      exact hp.eq_singleton
    | _ :: _ :: _ =>
      rw [ho] at h1
      simp at h1
  have hcalls : (calls T).Perm (calls S) := hL.flatMap_right _
  have hiff : (fillArrays T env).isSome ↔ (fillArrays S env).isSome := by
    rw [fill_eq, fill_eq, foldlM_success _ body_success, foldlM_success _ body_success]
    exact ⟨fun h k hk => h k (hcalls.mem_iff.2 hk), fun h k hk => h k (hcalls.mem_iff.1 hk)⟩
  unfold createSprings
  cases hS : fillArrays S env with
  | none =>
    rw [hS] at hiff
    cases hT' : fillArrays T env with
    | none => rfl
    | some A => rw [hT'] at hiff; simp at hiff
  | some A =>
    rw [hS] at hiff
    cases hT' : fillArrays T env with
    | none => rw [hT'] at hiff; simp at hiff
    | some B =>
      have key : B = A := by
        have tip : ∀ (α : Type) (π : Arrays → α) (g : SoilLayer → Row → ℕ → Option α),
            (∀ l r i, tipIn S l = false → g l r i = none) →
            (∀ l r i A A', step S env l A (r, i) = some A' → π A' = (g l r i).getD (π A)) →
            (∀ l r i A A', step T env l A (r, i) = some A' → π A' = (g l r i).getD (π A)) →
            π B = π A := by
          intro α π g hg h1 h2
          rw [owned_component (S := S) π (fun k => g k.1 k.2.1 k.2.2) (fun s k s' h => h1 _ _ _ _ _ h) r
            (fun l r' i hk hn => ?_) hS, owned_component (S := T) π (fun k => g k.1 k.2.1 k.2.2)
            (fun s k s' h => h2 _ _ _ _ _ h) r (fun l r' i hk hn => ?_) hT',
            hown r (List.mem_of_getLast? ht.last)]
          · rfl
          · refine hg l r' i ?_
            by_contra hcon
            rw [Bool.not_eq_false] at hcon
            rw [hown r (List.mem_of_getLast? ht.last)] at hn
            exact hn (tip_owner ht (hcalls.mem_iff.1 hk) hcon)
          · refine hg l r' i ?_
            by_contra hcon
            rw [Bool.not_eq_false] at hcon
            exact hn (tip_owner ht hk hcon)
        have elt : ∀ (α : Type) (π : Arrays → α) (j : ℕ) (g : SoilLayer → Row → ℕ → Option α),
            (∀ l r i A A', step S env l A (r, i) = some A' →
              π A' = if j = i then (g l r i).getD (π A) else π A) →
            (∀ l r i A A', step T env l A (r, i) = some A' →
              π A' = if j = i then (g l r i).getD (π A) else π A) →
            π B = π A := by
          intro α π j g h1 h2
          have ho : ∀ U : Input, (∀ l r i A A', step U env l A (r, i) = some A' →
              π A' = if j = i then (g l r i).getD (π A) else π A) → Overwrites (body U env) π
              (fun k : Call => if j = k.2.2 then g k.1 k.2.1 k.2.2 else none) := by
            intro U h s k s' hs
            rw [h k.1 k.2.1 k.2.2 s s' hs]
            simp only
            split_ifs <;> rfl
          cases hj : S.rows[j]? with
          | none =>
            have hS' := hS
            have hT'' := hT'
            rw [fill_eq] at hS' hT''
            have hno : ∀ k ∈ calls S,
                (fun k : Call => if j = k.2.2 then g k.1 k.2.1 k.2.2 else none) k = none := by
              rintro ⟨l, r', i⟩ hk
              simp only
              split_ifs with hji
              · subst hji
                have := (mem_calls.1 hk).1
                rw [hj] at this
                cases this
              · rfl
            rw [never (ho S h1) _ hno _ _ hS', never (ho T h2) _
              (fun k hk => hno k (hcalls.mem_iff.1 hk)) _ _ hT'']
          | some q =>
            have hq : q ∈ S.rows := List.mem_of_getElem? hj
            have hno : ∀ l r' i, (l, r', i) ∈ calls S → l ∉ owners S q →
                (fun k : Call => if j = k.2.2 then g k.1 k.2.1 k.2.2 else none) (l, r', i) = none := by
              intro l r' i hk hn
              simp only
              split_ifs with hji
              · subst hji
                obtain ⟨h3, h4⟩ := mem_calls.1 hk
                rw [hj, Option.some.injEq] at h3
                subst h3
                exact absurd h4 hn
              · rfl
            rw [owned_component (S := S) π _ (ho S h1) q hno hS,
              owned_component (S := T) π _ (ho T h2) q
                (fun l r' i hk hn => hno l r' i (hcalls.mem_iff.1 hk) (by rwa [hown q hq] at hn)) hT',
              hown q hq]
            rfl
        have e1 : B.py = A.py := funext fun j => funext fun b =>
          elt _ (fun A => A.py j b) j (fun l r i => cPy S env b l r i)
            (fun l r i A A' h => (step_facts h).py j b)
            (fun l r i A A' h => (step_facts h).py j b)
        have e2 : B.mt = A.mt := funext fun j => funext fun b =>
          elt _ (fun A => A.mt j b) j (fun l r i => cMt S env b l r i)
            (fun l r i A A' h => (step_facts h).mt j b)
            (fun l r i A A' h => (step_facts h).mt j b)
        have e3 : B.tz = A.tz := funext fun j => funext fun b =>
          elt _ (fun A => A.tz j b) j (fun l r i => cTz S env b l r i)
            (fun l r i A A' h => (step_facts h).tz j b)
            (fun l r i A A' h => (step_facts h).tz j b)
        have e4 : B.hb = A.hb := tip _ (fun A => A.hb) (fun l r _ => cHb S l r)
          (fun l r i h => by unfold cHb; cases l.lateral <;> simp [h])
          (fun l r i A A' h => (step_facts h).hb) (fun l r i A A' h => (step_facts h).hb)
        have e5 : B.mb = A.mb := tip _ (fun A => A.mb) (fun l r _ => cMb S l r)
          (fun l r i h => by unfold cMb; cases l.lateral <;> simp [h])
          (fun l r i A A' h => (step_facts h).mb) (fun l r i A A' h => (step_facts h).mb)
        have e6 : B.qz = A.qz := tip _ (fun A => A.qz) (fun l r i => cQz S env l r i)
          (fun l r i h => by unfold cQz; cases l.axial <;> simp [h])
          (fun l r i A A' h => (step_facts h).qz) (fun l r i A A' h => (step_facts h).qz)
        cases A
        cases B
        simp only at e1 e2 e3 e4 e5 e6
        rw [e1, e2, e3, e4, e5, e6]
      rw [key]

/-! ## Other layers -/

/-- Base springs depend on no layer but the one that contains the last element: whatever the other layers and
their models are, and in particular the layer below a tip on a boundary. -/
theorem C47_other_layers {T : Input} (L : List SoilLayer) (hT : T = { S with layers := L }) {A B : Arrays}
    (hA : createSprings S env = some A) (hB : createSprings T env = some B) {r : Row} (ht : TipRow S r)
    {l : SoilLayer} (hl : owners S r = [l]) (hl' : owners T r = [l]) :
    B.hb = A.hb ∧ B.mb = A.mb ∧ B.qz = A.qz := by
  subst hT
  obtain ⟨A, hA', rfl⟩ := create_some hA
  obtain ⟨B, hB', rfl⟩ := create_some hB
  have hl'' : owners { S with layers := L } r = [l] := hl'
  have ht' : TipRow { S with layers := L } r := ⟨ht.last, ht.tip, ht.lowest⟩
  have hsel : selected { S with layers := L } l = selected S l := rfl
  have tip : ∀ (α : Type) (π : Arrays → α) (g : SoilLayer → Row → ℕ → Option α),
      (∀ l r i, tipIn S l = false → g l r i = none) →
      (∀ l r i A A', step S env l A (r, i) = some A' → π A' = (g l r i).getD (π A)) →
      (∀ l r i A A', step { S with layers := L } env l A (r, i) = some A' →
        π A' = (g l r i).getD (π A)) → π B = π A := by
    intro α π g hg h1 h2
    rw [owned_component (S := S) π (fun k => g k.1 k.2.1 k.2.2) (fun s k s' h => h1 _ _ _ _ _ h) r
      (fun l r' i hk hn => ?_) hA', owned_component (S := { S with layers := L }) π
      (fun k => g k.1 k.2.1 k.2.2) (fun s k s' h => h2 _ _ _ _ _ h) r (fun l r' i hk hn => ?_) hB', hl, hl'']
    · rfl
    · refine hg l r' i ?_
      by_contra hcon
      rw [Bool.not_eq_false] at hcon
      exact hn (tip_owner ht' hk hcon)
    · refine hg l r' i ?_
      by_contra hcon
      rw [Bool.not_eq_false] at hcon
      exact hn (tip_owner ht hk hcon)
  refine ⟨?_, ?_, ?_⟩
  · exact tip _ (fun A => A.hb) (fun l r _ => cHb S l r)
      (fun l r i h => by unfold cHb; cases l.lateral <;> simp [h])
      (fun l r i A A' h => (step_facts h).hb) (fun l r i A A' h => (step_facts h).hb)
  · exact tip _ (fun A => A.mb) (fun l r _ => cMb S l r)
      (fun l r i h => by unfold cMb; cases l.lateral <;> simp [h])
      (fun l r i A A' h => (step_facts h).mb) (fun l r i A A' h => (step_facts h).mb)
  · exact congrArg negate (tip _ (fun A => A.qz) (fun l r i => cQz S env l r i)
      (fun l r i h => by unfold cQz; cases l.axial <;> simp [h])
      (fun l r i A A' h => (step_facts h).qz) (fun l r i A A' h => (step_facts h).qz))

/-! ## Depth of the base springs -/

/-- Base parameters without functions of depth. -/
def PlainBase : SoilModel.Model → Prop
  | .custom s => (∀ p ∈ [s.G0, s.hbC.k, s.hbC.n, s.hbC.X, s.hbC.Y, s.mbC.k, s.mbC.n, s.mbC.X, s.mbC.Y],
      Props.Custom.Plain p) ∧ ∀ p, s.Su = some p → Props.Custom.Plain p
  | _ => True

theorem base_depth {m : SoilModel.Model} (hm : PlainBase m) (a : Args) (X : ℝ) :
    m.hb { a with X := X } = m.hb a ∧ m.mb { a with X := X } = m.mb a := by
  cases m with
  | custom s =>
    obtain ⟨h1, h2⟩ := hm
    simp only [List.forall_mem_cons, List.not_mem_nil, false_imp_iff, implies_true, and_true] at h1
    obtain ⟨a1, a2, a3, a4, a5, a6, a7, a8, a9⟩ := h1
    constructor
    · simp only [SoilModel.Model.hb, Custom.hb, SoilModel.guard, Conics.at, Props.Custom.valueAt_plain a1,
        Props.Custom.valueAt_plain a2, Props.Custom.valueAt_plain a3, Props.Custom.valueAt_plain a4, Props.Custom.valueAt_plain a5]
      cases hS : s.Su with
      | none => rfl
      | some p => simp only [Props.Custom.valueAt_plain (h2 p hS)]
    · simp only [SoilModel.Model.mb, Custom.mb, SoilModel.guard, Conics.at, Props.Custom.valueAt_plain a1,
        Props.Custom.valueAt_plain a6, Props.Custom.valueAt_plain a7, Props.Custom.valueAt_plain a8, Props.Custom.valueAt_plain a9]
      cases hS : s.Su with
      | none => rfl
      | some p => simp only [Props.Custom.valueAt_plain (h2 p hS)]
  | _ => exact ⟨rfl, rfl⟩

/-- Base springs of a lateral model whose base parameters are not functions of depth are evaluated at the tip.
Partial: functions of depth are evaluated at the bottom of the soil profile, see `C47_violated_depth`. -/
theorem C47_at_tip_partial {A : Arrays} (hA : createSprings S env = some A) {r : Row} (ht : TipRow S r)
    (hp : r.bottom ≤ r.top) {l : SoilLayer} (hl : owners S r = [l]) {m : SoilModel.Model}
    (hm : l.lateral = some m) (hplain : PlainBase m) :
    (m.signature.2.1 = true → S.baseShear = true → ∃ sig s, r.sigBottom = some sig ∧ r.sec = some s ∧
        m.hb { sig := sig, X := S.ground - S.tip, height := l.top - l.bottom,
               depth := l.top - S.tip, D := s.diameter, L := S.ground - S.tip,
               belowWater := decide (S.tip ≤ S.water), ymax := 0, len := 15 } = some A.hb) ∧
    (m.signature.2.2.2 = true → S.baseMoment = true → ∃ sig s, r.sigBottom = some sig ∧ r.sec = some s ∧
        m.mb { sig := sig, X := S.ground - S.tip, height := l.top - l.bottom,
               depth := l.top - S.tip, D := s.diameter, L := S.ground - S.tip,
               belowWater := decide (S.tip ≤ S.water), ymax := 0, len := 15 } = some A.mb) := by
  constructor
  · intro h1 h2
    obtain ⟨sig, s, e1, e2, e3⟩ := (C47_hb_partial hA ht hp hl).1 m hm h1 h2
    exact ⟨sig, s, e1, e2, by rw [← e3]; exact (base_depth hplain _ _).1.symm⟩
  · intro h1 h2
    obtain ⟨sig, s, e1, e2, e3⟩ := (C47_mb_partial hA ht hp hl).1 m hm h1 h2
    exact ⟨sig, s, e1, e2, by rw [← e3]; exact (base_depth hplain _ _).2.symm⟩

/-- A function of depth for the ultimate base shear of a custom clay is evaluated at the bottom of the soil
profile: whenever its value there differs from the one at the tip, the base spring ends at the wrong
resistance. -/
theorem C47_violated_depth {A : Arrays} (hA : createSprings S env = some A) {r : Row} (ht : TipRow S r)
    (hp : r.bottom ≤ r.top) {l : SoilLayer} (hl : owners S r = [l]) (hh : l.bottom < l.top) {s : Custom}
    (hm : l.lateral = some (.custom s)) (hbase : S.baseShear = true) {f : ℝ → Option ℝ}
    {su G k n xu y : ℝ} (hSu : s.Su = some (.scalar su)) (hG : s.G0 = .scalar G)
    (hk : s.hbC.k = .scalar k) (hn : s.hbC.n = .scalar n) (hX : s.hbC.X = .scalar xu)
    (hY : s.hbC.Y = .func f) (hf : f (S.ground - S.profileBottom) = some y)
    (hsu : 0 < su) (hx : 0 < xu) (hy : 0 < y)
    (hn0 : 0 ≤ n) (hn1 : n < 1) {sec : Pile.Section ℝ} (hsec : r.sec = some sec) (hD : 0 < sec.diameter) :
    A.hb.getLast?.map Prod.snd = some (y * (su * sec.diameter ^ 2)) ∧
      ∀ y', f (S.ground - S.tip) = some y' → y' ≠ y →
        A.hb.getLast?.map Prod.snd ≠ some (y' * (su * sec.diameter ^ 2)) := by
  obtain ⟨sig, s', e1, e2, e3⟩ := (C47_hb_partial hA ht hp hl).1 _ hm rfl hbase
  rw [hsec, Option.some.injEq] at e2
  subst e2
  have hpos : l.top - l.bottom ≠ 0 := (sub_pos.2 hh).ne'
  have hdepth : ¬ l.top - S.tip > l.top - l.bottom := by
    have hmem : l ∈ owners S r := by
      rw [hl]
      exact List.mem_singleton.2 rfl
    have := (of_decide_eq_true (tipIn_owner ht hp hmem)).2
    exact not_lt.2 (by linarith)
  simp only [SoilModel.Model.hb, Custom.hb, SoilModel.guard, Conics.at, hSu, hG, hk, hn, hX, hY,
    Params.valueAt, Props.Custom.layered_scalar, if_neg hpos, if_neg hdepth, hf, Option.bind_eq_bind,
    Option.bind_some, Option.pure_def] at e3
  have h3 := (Conic.C29_shape_custom (s := su) (G0 := G) (p := 0) (D := sec.diameter)
    (c := ⟨xu, n, k, y⟩) (len := 15) (l := A.hb) hx hy hn0 hn1).2.2.2.2.2.1 e3
  have h4 := h3.2.1
  rw [h4]
  refine ⟨rfl, fun y' _ hne => ?_⟩
  simp only [Option.map_some, ne_eq, Option.some.injEq]
  intro hcon
  exact hne (mul_right_cancel₀ (by positivity) hcon).symm

/-! ## Circumferences -/

/-- The shaft springs of an open pile in clay count the outer circumference twice: the peak resistance in
compression is the unit shaft friction times twice the outer circumference, not times outer plus inner
circumference. -/
theorem C36_violated_circumference {A : Arrays} (hA : createSprings S env = some A) {j : ℕ} {r : Row}
    (hr : S.rows[j]? = some r) {l : SoilLayer} (hl : owners S r = [l]) (b : Bool) {m : ClayAxial}
    (hm : l.axial = some (.clay m)) (hd : S.distributedAxial = true)
    (hrand : IsRandom (env.tz l.top j b).tzDraws)
    (hsort : ∀ z, IsArgsort z ((env.tz l.top j b).argsort z)) {sig Su f : ℝ} {s : Pile.Section ℝ}
    (hsig : (if b then r.sigBottom else r.sigTop) = some sig) (hs : r.sec = some s)
    (hsig0 : 0 < sig) (hD : 0 < s.diameter) (ht : 0 < s.thickness) (htm : 0 < m.tMul)
    (hten : 0 ≤ m.tensionMul) (hres : 0 ≤ m.tResidual) (hres' : m.tResidual ≤ 1)
    (hSu : Params.layered m.Su (l.top - if b then r.bottom else r.top) (l.top - l.bottom) = some Su)
    (hSu0 : 0 < Su)
    (hf : m.unitShaftFriction sig (l.top - if b then r.bottom else r.top) (l.top - l.bottom) = some f)
    (hf0 : 0 < f) (hal : m.alphaLimit = 1) (hplug : ¬ PluggedC m.plugging) :
    IsLeast {y | ∃ x, (x, y) ∈ A.tz j b} (-(f * (2 * s.outerPerimeter Real.pi) * m.tMul)) ∧
      ¬ IsLeast {y | ∃ x, (x, y) ∈ A.tz j b}
        (-(f * (s.outerPerimeter Real.pi + s.innerPerimeter Real.pi) * m.tMul)) := by
  obtain ⟨sig', s', c, e1, e2, e3, e4⟩ := (C54_tz hA hr hl b).1 m hm hd
  rw [hsig, Option.some.injEq] at e1
  rw [hs, Option.some.injEq] at e2
  subst e1 e2
  have hper : 0 < s.diameter * Real.pi := mul_pos hD Real.pi_pos
  obtain ⟨c', e5, h1, -⟩ := C36_clay_partial m (s.diameter * Real.pi) (s.diameter * Real.pi) sig
    (l.top - l.bottom) (l.top - if b then r.bottom else r.top) s.diameter Su f 15 _ _ hrand hsort
    ⟨hper.le, hper, hD, htm.le, hten, hres, hres'⟩ hsig0 hSu hSu0 hf (by rw [hal]; exact min_le_right _ _)
    hal.le
  rw [e3, Option.some.injEq] at e5
  subst e5
  have hc : contact (PluggedC m.plugging) (s.diameter * Real.pi) (s.diameter * Real.pi) =
      2 * s.outerPerimeter Real.pi := by
    unfold contact Pile.Section.outerPerimeter
    rw [if_neg hplug]
    ring
  rw [hc] at h1
  have hleast : IsLeast {y | ∃ x, (x, y) ∈ A.tz j b}
      (-(f * (2 * s.outerPerimeter Real.pi) * m.tMul)) := by
    rw [e4]
    constructor
    · obtain ⟨x, hx⟩ := h1.1
      exact ⟨-x, List.mem_map.2 ⟨_, hx, rfl⟩⟩
    · rintro y ⟨x, hx⟩
      obtain ⟨q, hq, e⟩ := List.mem_map.1 hx
      have := h1.2 ⟨q.1, hq⟩
      rw [Prod.mk.injEq] at e
      rw [← e.2]
      exact neg_le_neg this
  refine ⟨hleast, fun hcon => ?_⟩
  have := hleast.unique hcon
  unfold Pile.Section.outerPerimeter Pile.Section.innerPerimeter at this
  have hp : 0 < f * m.tMul * s.thickness * Real.pi := by
    have := Real.pi_pos
    positivity
  nlinarith

/-! ## Models -/

theorem pairs_last {K : Type} (N : List K) (a b : K) (h : N.getLast? = some b) (h2 : [a, b] <:+ N) :
    (Mesh.pairs N).getLast? = some (a, b) := by
  obtain ⟨P, rfl⟩ := h2
  induction P with
  | nil => rfl
  | cons x P ih =>
    have e : Mesh.pairs (x :: P ++ [a, b]) =
        (x, (P ++ [a, b]).head (by simp)) :: Mesh.pairs (P ++ [a, b]) := by
      cases P with
      | nil => rfl
      | cons y P => rfl
    rw [e, List.getLast?_cons, ih (by simp)]
    rfl

/-- In a Model whose layers meet exactly and whose pile head is not below ground: every embedded element is
inside exactly one layer and has the stresses of C10 at both ends, elements above ground are inside none, and the
last element is embedded and ends at the tip. -/
theorem C54_mesh {p : Pile.Pile ℝ} {sp : SoilProfile} {x2mesh : List ℝ} {c top tip : ℝ}
    (h : Weight.Setup p sp.geometry x2mesh c top tip) (w : Switches)
    (table : List (ℝ × Pile.Section ℝ)) :
    ∃ (C : Mesh.Coordinates ℝ) (S : Input) (water : ℝ),
      Mesh.getCoordinates p (some sp.geometry) x2mesh c = some C ∧
      input p sp x2mesh c w table = some S ∧
      water ≤ sp.waterLine ∧ sp.waterLine - water ≤ c + 1 / 10000 ∧
      S.layers = sp.layers ∧ S.ground = sp.topElevation ∧ S.water = sp.waterLine ∧ S.tip = tip ∧
      S.rows.map (fun r => (r.top, r.bottom)) = C.elements ∧
      (∀ r ∈ S.rows, r.bottom < r.top ∧ r.sec = Model.elementSection table r.top ∧
        (r.top ≤ sp.topElevation → (∃ l, owners S r = [l]) ∧
          r.sigTop = some (Spec.Soil.stressAt water r.top sp.geometry.layers) ∧
          r.sigBottom = some (Spec.Soil.stressAt water r.bottom sp.geometry.layers)) ∧
        (sp.topElevation < r.top → owners S r = [])) ∧
      ∃ r, TipRow S r ∧ r.top ≤ sp.topElevation := by
  obtain ⟨C, hC, hm⟩ := Weight.mesh_facts h
  obtain ⟨C', rows, w', hC', hrows, hst, hw1, hw2⟩ :=
    Model.C10_snapped_water_line p sp.geometry x2mesh c tip h.toGoodSetup
  rw [hC] at hC'
  cases hC'
  obtain ⟨hst1, hst2⟩ := hst
  obtain ⟨g, hg⟩ : ∃ g, p.sections.getLast? = some g := by
    have := h.tip_eq
    unfold Pile.Pile.bottomElevation at this
    cases hl : p.sections.getLast? with
    | none => rw [hl] at this; cases this
    | some s => exact ⟨s, rfl⟩
  have hin : ∃ S, input p sp x2mesh c w table = some S ∧ S.rows = rows.map (rowOf table) ∧
      S.layers = sp.layers ∧ S.ground = sp.topElevation ∧ S.water = sp.waterLine ∧ S.tip = tip := by
    simp only [input, hrows, Except.toOption, h.tip_eq, Pile.Pile.tipArea, Pile.Pile.tipFootprint, hg,
      Option.map_some, Option.bind_eq_bind, Option.bind_some, Option.pure_def]
    exact ⟨_, rfl, rfl, rfl, rfl, rfl, rfl⟩
  obtain ⟨S, hS, hr, hlay, hgr, hwat, htip⟩ := hin
  have helts : S.rows.map (fun r => (r.top, r.bottom)) = C.elements := by
    rw [hr, List.map_map, ← hst1]
    rfl
  have hownG : ∀ r : Row, (owners S r).map (·.toLayer) =
      sp.geometry.layers.filter (fun l => decide (r.top ≤ l.top ∧ r.bottom ≥ l.bottom)) := by
    intro r
    unfold owners SoilProfile.geometry
    rw [hlay]
    simp only
    rw [List.filter_map]
    rfl
  have hmemE : ∀ r ∈ S.rows, (r.top, r.bottom) ∈ C.elements := by
    intro r hr'
    rw [← helts]
    exact List.mem_map.2 ⟨r, hr', rfl⟩
  -- the last element
  obtain ⟨N, a, hN⟩ : ∃ N a, C.nodes = N ++ [a, tip] := by
    have hl := hm.last
    have hh := hm.ground
    rcases List.eq_nil_or_concat C.nodes with h0 | ⟨M, b, h0⟩
    · rw [h0] at hl
      cases hl
    · rw [List.concat_eq_append] at h0
      rw [h0, List.getLast?_concat, Option.some.injEq] at hl
      subst hl
      rcases List.eq_nil_or_concat M with h1 | ⟨M', a, h1⟩
      · rw [h0, h1, List.nil_append, List.mem_singleton] at hh
        exact absurd hh (ne_of_gt h.ground)
      · rw [List.concat_eq_append] at h1
        exact ⟨M', a, by rw [h0, h1, List.append_assoc]; rfl⟩
  have hsort := hm.sorted
  rw [hN, List.pairwise_append] at hsort
  have hlow : ∀ x ∈ C.nodes, tip < x → a ≤ x := by
    intro x hx hlt
    rw [hN, List.mem_append] at hx
    rcases hx with hx | hx
    · exact (hsort.2.2 x hx a (by simp)).le
    · simp only [List.mem_cons, List.not_mem_nil, or_false] at hx
      rcases hx with rfl | rfl
      · exact le_rfl
      · exact absurd hlt (lt_irrefl _)
  have hlastE : C.elements.getLast? = some (a, tip) := by
    rw [hm.pairs]
    exact pairs_last _ _ _ hm.last ⟨N, hN.symm⟩
  have hlastR : ∃ r, S.rows.getLast? = some r ∧ r.top = a ∧ r.bottom = tip := by
    rw [← helts, List.getLast?_map] at hlastE
    cases hl : S.rows.getLast? with
    | none => rw [hl] at hlastE; cases hlastE
    | some r =>
      rw [hl, Option.map_some, Option.some.injEq, Prod.mk.injEq] at hlastE
      exact ⟨r, rfl, hlastE⟩
  refine ⟨C, S, w', hC, hS, hw1, hw2, hlay, hgr, hwat, htip, helts, ?_, ?_⟩
  · intro r hr'
    have he := hmemE r hr'
    obtain ⟨q, hq, rfl⟩ : ∃ q ∈ rows, rowOf table q = r := by
      rw [hr] at hr'
      exact List.mem_map.1 hr'
    refine ⟨hm.pos _ he, rfl, fun hle => ?_, fun hlt => ?_⟩
    · obtain ⟨l, hl⟩ := hm.layer _ he hle
      have := hownG (rowOf table q)
      rw [hl] at this
      obtain ⟨l', hl', -⟩ := List.map_eq_singleton_iff.1 this
      exact ⟨⟨l', hl'⟩, (hst2 q hq).1 hle⟩
    · have := hownG (rowOf table q)
      rw [List.filter_eq_nil_iff.2, List.map_eq_nil_iff] at this
      · exact this
      · intro l hl hcon
        rw [decide_eq_true_eq] at hcon
        exact absurd ((hcon.1.trans (hm.lays l hl).2.2)) (not_le.2 hlt)
  · obtain ⟨r, h1, h2, h3⟩ := hlastR
    refine ⟨r, ⟨h1, by rw [h3, htip], ?_⟩, ?_⟩
    · intro r' hr'
      have he := hmemE r' hr'
      rw [h2]
      have hn : r'.top ∈ C.nodes := by
        rw [hm.pairs] at he
        exact (List.of_mem_zip he).1
      exact hlow _ hn (lt_of_le_of_lt (hm.range _ he).2 (hm.pos _ he))
    · rw [h2]
      exact hlow _ hm.ground h.ground

/-! ## A case -/

/-- Custom clay whose ultimate base shear is a function of depth. -/
noncomputable def customExample : Custom where
  Su := some (.scalar 50)
  G0 := .scalar 5000
  pyC := ⟨.scalar 1, .scalar (1 / 2), .scalar 1, .scalar 1⟩
  mtC := ⟨.scalar 1, .scalar (1 / 2), .scalar 1, .scalar 1⟩
  hbC := ⟨.scalar 1, .scalar (1 / 2), .scalar 1, .func (fun d => some d)⟩
  mbC := ⟨.scalar 1, .scalar (1 / 2), .scalar 1, .scalar 1⟩
  p := .num 1
  y := .num 1
  m := .num 1
  t := .num 1

/-- Axial clay model without plug. -/
noncomputable def axialExample : ClayAxial :=
  { Su := .scalar 50, plugging := .none, alphaLimit := 1, tMul := 1, zMul := 1, qMul := 1, wMul := 1,
    tResidual := 0.9, tensionMul := 1 }

/-- The lower layer. -/
noncomputable def layerExample : SoilLayer :=
  { top := -5, bottom := -20, weight := 18, lateral := some (.custom customExample),
    axial := some (.clay axialExample) }

/-- The last element. -/
noncomputable def rowExample : Row := ⟨-5, -10, some 50, some 100, some ⟨1, -10, 2, 1 / 20⟩⟩

/-- A pile from 1 m above ground to 10 m depth in two layers, the lower one listed first. -/
noncomputable def inputExample : Input where
  rows := [⟨1, 0, none, none, some ⟨1, -10, 2, 1 / 20⟩⟩, ⟨0, -5, some 0, some 50, some ⟨1, -10, 2, 1 / 20⟩⟩,
    rowExample]
  layers := [layerExample, { top := 0, bottom := -5, weight := 20, lateral := none, axial := none }]
  ground := 0
  profileBottom := -20
  water := 0
  tip := -10
  tipArea := 1
  tipFootprint := 3
  distributedLateral := false
  distributedMoment := false
  distributedAxial := true
  baseShear := true
  baseMoment := false
  baseAxial := false

/-- Random numbers 1/2 throughout. -/
noncomputable def drawsExample : Draws :=
  let e : Env := ⟨List.replicate 15 (1 / 2), fun _ => 1 / 2, Props.Axial.stableArgsort⟩
  ⟨fun _ _ _ => e, fun _ _ _ => e, fun _ _ _ => e, fun _ _ => e⟩

theorem tz_example (b : Bool) : (tzNode inputExample layerExample (.clay axialExample) rowExample b
    (drawsExample.tz (-5) 2 b)).isSome := by
  have hr : IsRandom (fun _ => (1 / 2 : ℝ)) := fun _ => ⟨by norm_num, by norm_num⟩
  have hsig : ∃ sig, rowExample.sig b = some sig ∧ 0 < sig := by
    cases b
    · exact ⟨50, rfl, by norm_num⟩
    · exact ⟨100, rfl, by norm_num⟩
  obtain ⟨sig, e1, h1⟩ := hsig
  have hSu : ∀ d, Params.layered axialExample.Su d (layerExample.top - layerExample.bottom) = some 50 := by
    intro d
    norm_num [axialExample, layerExample, Params.layered, Params.topBottom]
  obtain ⟨c, e2, h2, -⟩ := Props.Axial.C33_tz_clay sig 50 2 1 0.9 1 _ 15 (fun _ => 1 / 2)
    Props.Axial.stableArgsort hr Props.Axial.stableArgsort_spec (by norm_num)
    (Props.Friction.C35_clay_law sig 50 1 h1 (by norm_num))
  have e4 : circumference axialExample.plugging (2 * Real.pi) (2 * Real.pi) axialExample.tensionMul =
      some (2 * Real.pi + 2 * Real.pi, 1) := by
    rfl
  have e5 : axialExample.tResidual = 0.9 := rfl
  have e3 : rowExample.sec = some ⟨1, -10, 2, 1 / 20⟩ := rfl
  have hlen := h2.scale (show (0 : ℝ) ≤ axialExample.zMul by norm_num [axialExample])
    (axialExample.tMul * (2 * Real.pi + 2 * Real.pi))
  simp only [tzNode, e1, e3, Option.bind_eq_bind, Option.bind_some, ClayAxial.tzSpring, hSu,
    Pile.Section.outerPerimeter, e4, Pile.Section.width, drawsExample, e5, e2, Option.pure_def]
  unfold store
  rw [if_pos]
  · rfl
  · rw [List.length_zip, hlen.disp, hlen.force]
    norm_num

theorem hb_example : (hbTip inputExample layerExample (.custom customExample) rowExample).isSome := by
  obtain ⟨c, hc⟩ := Conic.C28_defined_moderate (xu := 1) (n := 1 / 2) (k := 1) (yu := 20) (len := 15)
    (by norm_num) (by norm_num) (by norm_num) (by norm_num) (by norm_num)
  have hlen := (Conic.C28_points (by norm_num) hc).1
  have e1 : baseArgs inputExample layerExample rowExample =
      some { sig := 100, X := 20, height := 15, depth := 5, D := 2, L := 10, belowWater := true, ymax := 0,
             len := 15 } := by
    norm_num [baseArgs, sigTip, inputExample, rowExample, layerExample, Pile.Section.width]
  simp only [hbTip, e1, Option.bind_eq_bind, Option.bind_some]
  have e2 : SoilModel.Model.hb (.custom customExample)
      { sig := 100, X := 20, height := 15, depth := 5, D := 2, L := 10, belowWater := true, ymax := 0,
        len := 15 } = some (Conic.scale (50 * 2 / 5000) (50 * 2 ^ 2) c) := by
    simp only [SoilModel.Model.hb, Custom.hb, SoilModel.guard, Conics.at, customExample, Params.valueAt,
      Props.Custom.layered_scalar, Option.bind_eq_bind, Option.bind_some, Option.pure_def]
    norm_num [Conic.hbCustomClay, Conic.scaledConic, hc]
  rw [e2, Option.bind_some]
  unfold store
  rw [if_pos]
  · rfl
  · simp [Conic.scale, hlen]

theorem create_example : ∃ A, createSprings inputExample drawsExample = some A := by
  have : (fillArrays inputExample drawsExample).isSome := by
    rw [fill_eq, foldlM_success _ body_success]
    rintro ⟨l, r, i⟩ hk
    obtain ⟨h1, h2⟩ := mem_calls.1 hk
    have h3 : l ∈ inputExample.layers := (List.mem_filter.1 h2).1
    have h4 : r.top ≤ l.top ∧ l.bottom ≤ r.bottom := of_decide_eq_true (List.mem_filter.1 h2).2
    simp only [inputExample, List.mem_cons, List.not_mem_nil, or_false] at h3
    rcases h3 with rfl | rfl
    · have hri : r = rowExample ∧ i = 2 := by
        match i with
        | 0 =>
          cases h1
          norm_num [layerExample] at h4
        | 1 =>
          cases h1
          norm_num [layerExample] at h4
        | 2 =>
          cases h1
          exact ⟨rfl, rfl⟩
        | (k + 3) => cases h1
      obtain ⟨rfl, rfl⟩ := hri
      obtain ⟨t, ht⟩ := Option.isSome_iff_exists.1 (tz_example false)
      obtain ⟨u, hu⟩ := Option.isSome_iff_exists.1 (tz_example true)
      obtain ⟨v, hv⟩ := Option.isSome_iff_exists.1 hb_example
      have e1 : layerExample.axial = some (.clay axialExample) := rfl
      have e2 : layerExample.lateral = some (.custom customExample) := rfl
      have e3 : layerExample.top = -5 := rfl
      simp only [body, step, axialStep, e1, lateralStep, e2, pyStep, mtStep, hbStep, mbStep]
      have f1 : inputExample.distributedLateral = false := rfl
      have f2 : inputExample.distributedMoment = false := rfl
      have f3 : inputExample.distributedAxial = true := rfl
      have f4 : inputExample.baseShear = true := rfl
      have f5 : inputExample.baseMoment = false := rfl
      have f6 : inputExample.baseAxial = false := rfl
      have f7 : tipIn inputExample layerExample = true := by
        norm_num [tipIn, inputExample, layerExample]
      simp only [f1, f2, f3, f4, f5, f6, f7, e3, ht, hu, hv, Bool.and_false, Bool.false_eq_true, if_false,
        if_true, Option.bind_eq_bind, Option.bind_some, Option.pure_def, Bool.and_true, Bool.true_and,
        SoilModel.Model.signature, Option.isSome_some]
    · rfl
  obtain ⟨A, hA⟩ := Option.isSome_iff_exists.1 this
  exact ⟨_, by rw [createSprings, hA]; rfl⟩

theorem owners_example : owners inputExample rowExample = [layerExample] := by
  unfold owners
  have : inputExample.layers = [layerExample, { top := 0, bottom := -5, weight := 20, lateral := none, axial := none }] := rfl
  rw [this, List.filter_cons_of_pos, List.filter_cons_of_neg]
  · rfl
  · norm_num [rowExample]
  · norm_num [rowExample, layerExample]

theorem tip_example : TipRow inputExample rowExample where
  last := rfl
  tip := rfl
  lowest := by
    intro r hr
    simp only [inputExample, List.mem_cons, List.not_mem_nil, or_false] at hr
    rcases hr with rfl | rfl | rfl <;> norm_num [rowExample]

/-- The base spring of the example ends at the value for the bottom of the profile (20 m), not for the tip
(10 m). -/
example : ∃ A, createSprings inputExample drawsExample = some A ∧
    A.hb.getLast?.map Prod.snd = some (20 * (50 * 2 ^ 2)) := by
  obtain ⟨A, hA⟩ := create_example
  refine ⟨A, hA, ?_⟩
  exact (C47_violated_depth hA tip_example (by norm_num [rowExample]) owners_example
    (by norm_num [layerExample]) rfl rfl (s := customExample) (f := fun d => some d) (su := 50) (G := 5000)
    (k := 1) (n := 1 / 2) (xu := 1) (y := 20) rfl rfl rfl rfl rfl rfl (by norm_num [inputExample])
    (by norm_num) (by norm_num) (by norm_num) (by norm_num) (by norm_num)
    (sec := ⟨1, -10, 2, 1 / 20⟩) rfl (by norm_num)).1

/-- The shaft spring at the bottom of the last element counts the outer circumference twice. -/
example : ∃ A f, createSprings inputExample drawsExample = some A ∧ 0 < f ∧
    IsLeast {y | ∃ x, (x, y) ∈ A.tz 2 true} (-(f * (2 * (2 * Real.pi)) * 1)) := by
  obtain ⟨A, hA⟩ := create_example
  have hl := Props.Friction.C35_clay_law 100 50 1 (by norm_num) (by norm_num)
  have hSu : Params.layered axialExample.Su (layerExample.top - rowExample.bottom)
      (layerExample.top - layerExample.bottom) = some 50 := by
    norm_num [axialExample, layerExample, Params.layered, Params.topBottom]
  have hpos : (0 : ℝ) < min (Props.Friction.adhesion (50 / 100)) 1 * 50 :=
    mul_pos (lt_min (Props.Friction.adhesion_pos (by norm_num)) one_pos) (by norm_num)
  refine ⟨A, _, hA, hpos, ?_⟩
  exact (C36_violated_circumference (m := axialExample) (Su := 50) (s := ⟨1, -10, 2, 1 / 20⟩) (sig := 100) hA
    (j := 2) (r := rowExample) rfl owners_example true rfl rfl (fun _ => ⟨by norm_num [drawsExample], by norm_num [drawsExample]⟩)
    (fun z => Props.Axial.stableArgsort_spec z) rfl rfl (by norm_num) (by norm_num) (by norm_num)
    (by norm_num [axialExample]) (by norm_num [axialExample]) (by norm_num [axialExample])
    (by norm_num [axialExample]) hSu (by norm_num)
    (by
      simp only [ClayAxial.unitShaftFriction, if_true, hSu, Option.bind_eq_bind, Option.bind_some]
      exact hl) hpos rfl (by simp [axialExample, PluggedC])).1

/-- A Model that meets the hypotheses of `C54_mesh`. -/
theorem setup_example (lat : Option SoilModel.Model) (ax : Option AxialModel) :
    Weight.Setup (⟨[⟨1, -10, 2, 1 / 20⟩], Pile.steel⟩ : Pile.Pile ℝ)
    (SoilProfile.geometry ⟨0, -1, [⟨⟨0, -20, 18⟩, lat, ax⟩]⟩) [] 1 1 (-10) where
  coarse := by norm_num
  tip_eq := rfl
  built := by
    intro l hl
    simp only [SoilProfile.geometry, List.map_cons, List.map_nil, List.mem_cons, List.not_mem_nil,
      or_false] at hl
    rw [Soil.built_iff]
    subst hl
    norm_num
  exact := by
    simp [SoilProfile.geometry, Soil.sortLayers, Py.sortedBy]
  first := ⟨⟨0, -20, 18⟩, by simp [SoilProfile.geometry, Soil.sortLayers, Py.sortedBy], rfl⟩
  last := ⟨⟨0, -20, 18⟩, by simp [SoilProfile.geometry, Soil.sortLayers, Py.sortedBy], by norm_num⟩
  grid := by
    rintro r (⟨s, hs, h⟩ | ⟨sp', hsp, l, hl, h, h'⟩ | h)
    · simp only [List.mem_cons, List.not_mem_nil, or_false] at hs
      subst hs
      rcases h with rfl | rfl
      · exact ⟨10000, by norm_num⟩
      · exact ⟨-100000, by norm_num⟩
    · cases hsp
      simp only [SoilProfile.geometry, List.map_cons, List.map_nil, List.mem_cons, List.not_mem_nil,
        or_false] at hl
      subst hl
      rcases h with rfl | rfl
      · exact ⟨0, by norm_num⟩
      · exact ⟨-200000, by norm_num⟩
    · cases h
  ground := by norm_num [SoilProfile.geometry]
  extra := by simp
  sections := by
    intro s hs
    simp only [List.mem_cons, List.not_mem_nil, or_false] at hs
    subst hs
    norm_num
  pile := ⟨[⟨1, -10, 2, 1 / 20⟩], Pile.steel, rfl, by
    intro s hs
    simp only [List.mem_cons, List.not_mem_nil, or_false] at hs
    subst hs
    rw [Pile.built_iff]
    norm_num⟩
  head := rfl
  below := by norm_num [SoilProfile.geometry]
  inside := by simp

end OpenPile.Props.Assemble

/-
Property C99 with soil: an unloaded part of the pile above everything else changes neither the springs nor the results.
-/
import Verif.Props.Stub
import Verif.Props.SplitPile
import Verif.Props.NoModels

namespace OpenPile.Props.StubSoil
open OpenPile.Assemble OpenPile.Props.SplitPile
open OpenPile.Pile (Pile Section)

/-! ### stresses -/

section rows
variable {K : Type} [Field K] [LinearOrder K]

omit [Field K] in
theorem where_above (t : K) (X els : List (K × K)) (hX : ∀ e ∈ X, t < e.1) : ∀ i : ℕ,
    Model.whereTop t i (X ++ els) = Model.whereTop t (i + X.length) els := by
  induction X with
  | nil => intro i; rfl
  | cons e X ih =>
    intro i
    have := hX e (by simp)
    simp only [List.cons_append, Model.whereTop, List.length_cons]
    rw [if_neg this.ne', ih (fun e he => hX e (List.mem_cons_of_mem _ he))]
    congr 1
    omega

omit [Field K] in
theorem where_shift (t : K) (k : ℕ) (els : List (K × K)) : ∀ i : ℕ,
    Model.whereTop t (i + k) els = (Model.whereTop t i els).map (· + k) := by
  induction els with
  | nil => intro i; rfl
  | cons e l ih =>
    intro i
    simp only [Model.whereTop]
    have := ih (i + 1)
    rw [show i + 1 + k = i + k + 1 by omega] at this
    split_ifs
    · rw [this, List.map_cons]
    · exact this

omit [LinearOrder K] in
theorem cumsum_above {α : Type} (X : List α) (s : List (Option K)) (a : K) :
    Model.cumsum a (X.map (fun _ => none) ++ s) = X.map (fun _ => none) ++ Model.cumsum a s := by
  induction X with
  | nil => rfl
  | cons e X ih =>
    simp only [List.map_cons, List.cons_append, Model.cumsum, ih]

omit [LinearOrder K] in
theorem cumsum_length (s : List (Option K)) : ∀ a : K, (Model.cumsum a s).length = s.length := by
  induction s with
  | nil => intro a; rfl
  | cons x s ih =>
    intro a
    cases x <;> simp [Model.cumsum, ih]

theorem insert_above {α β : Type} (X : List α) (L : List (Option β)) (i : ℕ) (a : Option β) :
    (X.map (fun _ => none) ++ L).insertIdx (i + X.length) a = X.map (fun _ => none) ++ L.insertIdx i a := by
  induction X with
  | nil => rfl
  | cons e X ih =>
    simp only [List.map_cons, List.cons_append, List.length_cons]
    rw [show i + (X.length + 1) = i + X.length + 1 by omega, List.insertIdx_succ_cons, ih]

/-- The stresses of a pile with further elements `X` above everything: the same below, none for the elements `X`. -/
theorem rows_above (sp : Soil.Profile K) (X els : List (K × K)) (hX : ∀ e ∈ X, sp.topElevation < e.1)
    (hl : ∀ l ∈ sp.layers, l.top ≤ sp.topElevation) (hne : els ≠ []) :
    (Model.soilRows sp (X ++ els)).toOption
      = (Model.soilRows sp els).toOption.map (fun rows => X.map (fun e => ⟨e, none, none, none⟩) ++ rows) := by
  have hw : ∀ e ∈ X, Model.elementWeight sp e = none := by
    intro e he
    unfold Model.elementWeight Model.mergeForward
    rw [Option.map_eq_none_iff, List.find?_eq_none]
    intro l hm
    have hm : l ∈ sp.layers := by
      have h1 : l ∈ Soil.sortLayers sp.layers := (Py.sortedBy_perm _ _).mem_iff.1 hm
      exact (Soil.sortLayers_perm _).mem_iff.1 h1
    have := hX e he
    have := hl l hm
    simp only [decide_eq_true_eq, not_le]
    order
  have hs : (X ++ els).map (fun e => (Model.elementWeight sp e).map (fun w => (e.1 - e.2) * w))
      = X.map (fun _ => none) ++ els.map (fun e => (Model.elementWeight sp e).map (fun w => (e.1 - e.2) * w)) := by
    rw [List.map_append]
    congr 1
    refine List.map_congr_left (fun e he => ?_)
    rw [hw e he]
    rfl
  unfold Model.soilRows Model.stressColumns
  rw [where_above _ _ _ hX, where_shift, hs]
  simp only [cumsum_above]
  generalize hcs : Model.cumsum 0 (els.map (fun e => (Model.elementWeight sp e).map (fun w => (e.1 - e.2) * w))) = cs
  have hlen : cs.length = els.length := by rw [← hcs, cumsum_length, List.length_map]
  have hcne : cs ≠ [] := by
    intro h
    rw [h] at hlen
    exact hne (List.length_eq_zero_iff.1 hlen.symm)
  rcases hwh : Model.whereTop sp.topElevation 0 els with _ | ⟨i, _ | ⟨j, l⟩⟩
  · rfl
  · simp only [List.map_cons, List.map_nil, bind, Except.bind, pure, Except.pure, Except.toOption, Option.map_some]
    rw [List.dropLast_append_of_ne_nil hcne]
    have hins : (X.map (fun _ => none) ++ cs.dropLast).insertIdx (i + X.length) (some (0 : K))
        = X.map (fun _ => none) ++ cs.dropLast.insertIdx i (some 0) := by
      exact insert_above X _ i _
    rw [hins, List.zip_append (by simp), List.zipWith_append (by simp)]
    congr 2
    clear hs hwh hins
    induction X with
    | nil => rfl
    | cons e X ih =>
      simp only [List.map_cons, List.zip_cons_cons, List.zipWith_cons_cons]
      rw [ih (fun e he => hX e (List.mem_cons_of_mem _ he)) (fun e he => hw e (List.mem_cons_of_mem _ he)), hw e (by simp)]
  · rfl

omit [Field K] in
theorem where_lt (t : K) (els : List (K × K)) : ∀ i : ℕ, ∀ j ∈ Model.whereTop t i els, j < i + els.length := by
  induction els with
  | nil => intro i j hj; cases hj
  | cons e l ih =>
    intro i j hj
    simp only [Model.whereTop] at hj
    rw [List.length_cons]
    split_ifs at hj
    · rcases List.mem_cons.1 hj with rfl | hj
      · omega
      · have := ih (i + 1) j hj
        omega
    · have := ih (i + 1) j hj
      omega

theorem rows_ne (sp : Soil.Profile K) (els : List (K × K)) (hne : els ≠ []) (rows : List (Model.SoilRow K))
    (h : (Model.soilRows sp els).toOption = some rows) : rows ≠ [] := by
  unfold Model.soilRows Model.stressColumns at h
  simp only at h
  generalize hcs : Model.cumsum 0 (els.map (fun e => (Model.elementWeight sp e).map (fun w => (e.1 - e.2) * w))) = cs at h
  have hlen : cs.length = els.length := by rw [← hcs, cumsum_length, List.length_map]
  have h0 : 0 < els.length := List.length_pos_iff.2 hne
  rcases hwh : Model.whereTop sp.topElevation 0 els with _ | ⟨i, _ | ⟨j, l⟩⟩ <;> rw [hwh] at h
  · cases h
  · simp only [bind, Except.bind, pure, Except.pure, Except.toOption, Option.some.injEq] at h
    have hi := where_lt sp.topElevation els 0 i (by rw [hwh]; simp)
    intro hr
    rw [hr] at h
    have h1 := congrArg List.length h
    rw [List.length_zipWith, List.length_zip, List.length_insertIdx_of_le_length (by rw [List.length_dropLast]; omega), List.length_nil] at h1
    omega
  · cases h

end rows

/-! ### springs -/

/-- The draws of a pile without its `k` topmost elements. -/
def from_ (k : ℕ) (env : Draws) : Draws where
  py := fun t i b => env.py t (i + k) b
  mt := fun t i b => env.mt t (i + k) b
  tz := fun t i b => env.tz t (i + k) b
  qz := fun t i => env.qz t (i + k)

/-- Tables of a pile with `k` further elements without springs on top. -/
def shiftA (k : ℕ) (A : Arrays) : Arrays where
  py := fun i b => if i < k then zeros else A.py (i - k) b
  mt := fun i b => if i < k then List.replicate 15 zeros else A.mt (i - k) b
  tz := fun i b => if i < k then zeros else A.tz (i - k) b
  hb := A.hb
  mb := A.mb
  qz := A.qz

theorem shift_zero (k : ℕ) : shiftA k Arrays.zero = Arrays.zero := by
  simp [shiftA, Arrays.zero]

theorem set_shift {α : Type} (k i : ℕ) (f : ℕ → Bool → α) (o t b : α) :
    setBoth (fun i b => if i < k then o else f (i - k) b) (i + k) t b = fun j c => if j < k then o else setBoth f i t b (j - k) c := by
  funext j c
  unfold setBoth
  dsimp only
  by_cases hj : j < k
  · rw [if_pos hj, if_pos hj, if_neg (by omega)]
  · rw [if_neg hj, if_neg hj]
    by_cases h : j = i + k
    · have h' : j - k = i := by omega
      rw [if_pos h, if_pos h']
    · have h' : ¬ j - k = i := by omega
      rw [if_neg h, if_neg h']

section step
variable (S S' : Input) (R : List Row) (hS : S' = { S with rows := R }) (ht : sigTip S' = sigTip S) (env : Draws) (k : ℕ)
include hS ht

theorem step_shift (l : SoilLayer) (A : Arrays) (r : Row) (i : ℕ) :
    step S' env l (shiftA k A) (r, i + k) = (step S (from_ k env) l A (r, i)).map (shiftA k) := by
  have hn : ∀ b, nodeArgs S' l r b = nodeArgs S l r b := fun b => by subst hS; rfl
  have hb : baseArgs S' l r = baseArgs S l r := by
    unfold baseArgs
    rw [ht]
    subst hS
    rfl
  have hz : ∀ m b e, tzNode S' l m r b e = tzNode S l m r b e := fun m b e => by subst hS; rfl
  have hq : ∀ m e, qzTip S' l m r e = qzTip S l m r e := fun m e => by
    unfold qzTip
    rw [ht]
    subst hS
    rfl
  have hi : tipIn S' l = tipIn S l := by subst hS; rfl
  have s1 : S'.distributedAxial = S.distributedAxial := by subst hS; rfl
  have s2 : S'.baseAxial = S.baseAxial := by subst hS; rfl
  have s3 : S'.distributedLateral = S.distributedLateral := by subst hS; rfl
  have s4 : S'.distributedMoment = S.distributedMoment := by subst hS; rfl
  have s5 : S'.baseShear = S.baseShear := by subst hS; rfl
  have s6 : S'.baseMoment = S.baseMoment := by subst hS; rfl
  have a1 : ∀ A, axialStep S' env l r (i + k) (shiftA k A) = (axialStep S (from_ k env) l r i A).map (shiftA k) := by
    intro A
    unfold axialStep
    cases l.axial with
    | none => rfl
    | some m =>
      simp only [hz, hq, hi, s1, s2]
      have e : ∀ b, (from_ k env).tz l.top i b = env.tz l.top (i + k) b := fun b => rfl
      have e' : (from_ k env).qz l.top i = env.qz l.top (i + k) := rfl
      rw [e, e, e']
      have second : ∀ A : Arrays, (if (tipIn S l && S.baseAxial) = true then (do
            let q ← qzTip S l m r (env.qz l.top (i + k))
            pure { shiftA k A with qz := q }) else pure (shiftA k A) : Option Arrays)
          = (if (tipIn S l && S.baseAxial) = true then (do
            let q ← qzTip S l m r (env.qz l.top (i + k))
            pure { A with qz := q }) else pure A : Option Arrays).map (shiftA k) := by
        intro A
        split_ifs
        · cases qzTip S l m r (env.qz l.top (i + k)) <;> rfl
        · rfl
      cases S.distributedAxial with
      | false => exact second A
      | true =>
        simp only [if_true]
        cases tzNode S l m r false (env.tz l.top (i + k) false) with
        | none => rfl
        | some t =>
          cases tzNode S l m r true (env.tz l.top (i + k) true) with
          | none => rfl
          | some b =>
            have h : ({ shiftA k A with tz := setBoth (shiftA k A).tz (i + k) t b } : Arrays)
                = shiftA k { A with tz := setBoth A.tz i t b } := by
              simp only [shiftA, set_shift]
            have h2 := second { A with tz := setBoth A.tz i t b }
            rw [← h] at h2
            exact h2
  have p1 : ∀ m A, pyStep S' env l m r (i + k) (shiftA k A) = (pyStep S (from_ k env) l m r i A).map (shiftA k) := by
    intro m A
    unfold pyStep pyNode
    simp only [hn, s3]
    have e : ∀ b, (from_ k env).py l.top i b = env.py l.top (i + k) b := fun b => rfl
    simp only [e]
    split_ifs
    · cases (nodeArgs S l r false >>= fun a => m.py a (env.py l.top (i + k) false) >>= fun c => store c) with
      | none => rfl
      | some t =>
        cases (nodeArgs S l r true >>= fun a => m.py a (env.py l.top (i + k) true) >>= fun c => store c) with
        | none => rfl
        | some b => simp only [Option.bind_eq_bind, Option.bind_some, Option.pure_def, Option.map_some, shiftA, set_shift]
    · rfl
  have m1 : ∀ m A, mtStep S' env l m r (i + k) (shiftA k A) = (mtStep S (from_ k env) l m r i A).map (shiftA k) := by
    intro m A
    unfold mtStep mtNode
    simp only [hn, s4]
    have e : ∀ b, (from_ k env).mt l.top i b = env.mt l.top (i + k) b := fun b => rfl
    simp only [e]
    split_ifs
    · cases (nodeArgs S l r false >>= fun a => m.mt a (env.mt l.top (i + k) false) >>= fun c => storeTable c) with
      | none => rfl
      | some t =>
        cases (nodeArgs S l r true >>= fun a => m.mt a (env.mt l.top (i + k) true) >>= fun c => storeTable c) with
        | none => rfl
        | some b => simp only [Option.bind_eq_bind, Option.bind_some, Option.pure_def, Option.map_some, shiftA, set_shift]
    · rfl
  have b1 : ∀ m A, hbStep S' l m r (shiftA k A) = (hbStep S l m r A).map (shiftA k) := by
    intro m A
    unfold hbStep hbTip
    simp only [hb, hi, s5]
    split_ifs
    · cases (baseArgs S l r >>= fun a => m.hb a >>= fun c => store c) <;> rfl
    · rfl
  have b2 : ∀ m A, mbStep S' l m r (shiftA k A) = (mbStep S l m r A).map (shiftA k) := by
    intro m A
    unfold mbStep mbTip
    simp only [hb, hi, s6]
    split_ifs
    · cases (baseArgs S l r >>= fun a => m.mb a >>= fun c => store c) <;> rfl
    · rfl
  have l1 : ∀ A, lateralStep S' env l r (i + k) (shiftA k A) = (lateralStep S (from_ k env) l r i A).map (shiftA k) := by
    intro A
    unfold lateralStep
    cases l.lateral with
    | none => rfl
    | some m =>
      simp only [p1]
      cases pyStep S (from_ k env) l m r i A with
      | none => rfl
      | some A =>
        simp only [Option.map_some, Option.bind_eq_bind, Option.bind_some, m1]
        cases mtStep S (from_ k env) l m r i A with
        | none => rfl
        | some A =>
          simp only [Option.map_some, Option.bind_some, b1]
          cases hbStep S l m r A with
          | none => rfl
          | some A => exact b2 m A
  unfold step
  simp only [a1]
  cases axialStep S (from_ k env) l r i A with
  | none => rfl
  | some A => exact l1 A

end step

/-- Loops over lists whose steps correspond. -/
theorem foldlM_map_rel {α β γ δ : Type} (f : β → α → Option β) (g : δ → γ → Option δ) (φ : β → δ) (ψ : α → γ) (L : List α)
    (h : ∀ a ∈ L, ∀ b, g (φ b) (ψ a) = (f b a).map φ) : ∀ b, (L.map ψ).foldlM g (φ b) = (L.foldlM f b).map φ := by
  induction L with
  | nil => intro b; rfl
  | cons a L ih =>
    intro b
    rw [List.map_cons, List.foldlM_cons, List.foldlM_cons, h a (by simp)]
    cases f b a with
    | none => rfl
    | some b => exact ih (fun a ha => h a (List.mem_cons_of_mem _ ha)) b

/-- Springs of a pile with elements `X` without soil on top. -/
theorem springs_above (S S' : Input) (X : List Row) (hS : S' = { S with rows := X ++ S.rows }) (hne : S.rows ≠ [])
    (hX : ∀ r ∈ X, ∀ l ∈ S.layers, l.top < r.top) (env : Draws) :
    createSprings S' env = (createSprings S (from_ X.length env)).map (shiftA X.length) := by
  have ht : sigTip S' = sigTip S := by
    subst hS
    unfold sigTip
    rw [List.getLast?_append_of_ne_nil _ hne]
  have hsel : ∀ l ∈ S.layers, selected S' l = (selected S l).map (fun x => (x.1, x.2 + X.length)) := by
    intro l hl
    unfold selected
    subst hS
    simp only
    rw [List.zipIdx_append, List.filter_append, Nat.zero_add]
    have h1 : X.zipIdx.filter (fun x => decide (x.1.top ≤ l.top ∧ x.1.bottom ≥ l.bottom)) = [] := by
      rw [List.filter_eq_nil_iff]
      intro x hx
      have := hX x.1 (List.fst_mem_of_mem_zipIdx hx) l hl
      simp only [decide_eq_true_eq, not_and]
      intro h
      linarith
    rw [h1, List.nil_append]
    have h2 : S.rows.zipIdx X.length = S.rows.zipIdx.map (fun x => (x.1, x.2 + X.length)) := by
      apply List.ext_getElem?
      intro i
      simp only [List.getElem?_map, List.getElem?_zipIdx, Option.map_map]
      congr 1
      funext a
      simp [Nat.add_comm]
    rw [h2, List.filter_map]
    rfl
  have hfill : fillArrays S' env = (fillArrays S (from_ X.length env)).map (shiftA X.length) := by
    unfold fillArrays
    have hlay : S'.layers = S.layers := by subst hS; rfl
    rw [hlay]
    have := foldlM_map_rel (fun A l => (selected S l).foldlM (step S (from_ X.length env) l) A)
      (fun A l => (selected S' l).foldlM (step S' env l) A) (shiftA X.length) id S.layers ?_ Arrays.zero
    · rw [List.map_id, shift_zero] at this
      exact this
    · intro l hl A
      simp only [id]
      rw [hsel l hl]
      exact foldlM_map_rel _ _ _ _ _ (fun x _ A => step_shift S S' (X ++ S.rows) hS ht env X.length l A x.1 x.2) A
  unfold createSprings
  rw [hfill]
  have hz : negate zeros = zeros := by simp [negate, zeros]
  cases fillArrays S (from_ X.length env) with
  | none => rfl
  | some A =>
    simp only [Option.map_some, Option.bind_eq_bind, Option.bind_some, Option.pure_def, shiftA, Option.some.injEq, Arrays.mk.injEq, true_and, and_true]
    funext i b
    split_ifs
    · exact hz
    · rfl

theorem shift_nil (A : Arrays) : shiftA 0 A = A := by
  simp [shiftA]

/-- What the springs read of an element: of the section its diameter, and nothing if the element lies above the level `g`. -/
noncomputable def seenRow (g : ℝ) (r : Row) : Row := if r.top ≤ g then norm r else { r with sec := none }

theorem seen_facts (g : ℝ) (r : Row) : (seenRow g r).top = r.top ∧ (seenRow g r).bottom = r.bottom ∧ (seenRow g r).sigBottom = r.sigBottom := by
  unfold seenRow
  split_ifs <;> exact ⟨rfl, rfl, rfl⟩

theorem create_seen (S : Input) (g : ℝ) (hl : ∀ l ∈ S.layers, l.top ≤ g) (env : Draws) :
    createSprings { S with rows := S.rows.map (seenRow g) } env = createSprings S env := by
  generalize hS' : ({ S with rows := S.rows.map (seenRow g) } : Input) = S'
  have ht : sigTip S' = sigTip S := by
    subst hS'
    unfold sigTip
    simp only [List.getLast?_map]
    cases S.rows.getLast? with
    | none => rfl
    | some r => exact (seen_facts g r).2.2
  have hsel : ∀ l, selected S' l = (selected S l).map (fun x => (seenRow g x.1, x.2)) := by
    intro l
    subst hS'
    unfold selected
    rw [List.zipIdx_map, List.filter_map]
    have : ((fun x : Row × ℕ => decide (x.1.top ≤ l.top ∧ x.1.bottom ≥ l.bottom)) ∘ Prod.map (seenRow g) id)
        = fun x : Row × ℕ => decide (x.1.top ≤ l.top ∧ x.1.bottom ≥ l.bottom) := by
      funext x
      simp only [Function.comp, Prod.map, seen_facts]
    rw [this]
    rfl
  have hfill : fillArrays S' env = fillArrays S env := by
    unfold fillArrays
    have hlay : S'.layers = S.layers := by subst hS'; rfl
    rw [hlay]
    have := foldlM_map_rel (fun A l => (selected S l).foldlM (step S env l) A)
      (fun A l => (selected S' l).foldlM (step S' env l) A) id id S.layers ?_ Arrays.zero
    · rw [List.map_id, Option.map_id] at this
      exact this
    · intro l hm A
      simp only [id, Option.map_id]
      rw [hsel l]
      have := foldlM_map_rel (step S env l) (step S' env l) id (fun x : Row × ℕ => (seenRow g x.1, x.2)) (selected S l) ?_ A
      · rw [Option.map_id] at this
        exact this
      · intro x hx A
        rw [Option.map_id]
        simp only [id]
        have hx1 : x.1.top ≤ g := by
          unfold selected at hx
          have := (List.mem_filter.1 hx).2
          simp only [decide_eq_true_eq] at this
          exact this.1.trans (hl l hm)
        have e : seenRow g x.1 = norm x.1 := by unfold seenRow; rw [if_pos hx1]
        have h0 := step_shift (normInput S) S' (S.rows.map (seenRow g)) (by subst hS'; rfl) (by rw [ht, sigTip_norm]) env 0 l A (norm x.1) x.2
        rw [shift_nil] at h0
        have : shiftA 0 = id := funext shift_nil
        rw [this, Option.map_id] at h0
        rw [e]
        refine h0.trans ?_
        exact step_norm S (from_ 0 env) l x.1 x.2 A
  unfold createSprings
  rw [hfill]

/-- What `create_springs` reads besides the elements. -/
noncomputable def inputOf (sp : SoilProfile) (w : Switches) (tip a f : ℝ) (rows : List Row) : Input :=
  { rows := rows, layers := sp.layers, ground := sp.topElevation, profileBottom := sp.geometry.bottomElevation, water := sp.waterLine,
    tip := tip, tipArea := a, tipFootprint := f, distributedLateral := w.distributedLateral, distributedMoment := w.distributedMoment,
    distributedAxial := w.distributedAxial, baseShear := w.baseShear, baseMoment := w.baseMoment, baseAxial := w.baseAxial }

/-- The springs of a Model whose pile has further sections and its mesh further elements above the ground. -/
theorem springs_stub (p p' : Pile ℝ) (E : List (Section ℝ)) (hE : p'.sections = E ++ p.sections) (hne : p.sections ≠ [])
    (sp : SoilProfile) (hl : ∀ l ∈ sp.layers, l.top ≤ sp.topElevation) (x2 x2' : List ℝ) (c : ℝ) (C C' : Mesh.Coordinates ℝ)
    (hC : Mesh.getCoordinates p (some sp.geometry) x2 c = some C) (hC' : Mesh.getCoordinates p' (some sp.geometry) x2' c = some C')
    (X : List (ℝ × ℝ)) (hX : C'.elements = X ++ C.elements) (hab : ∀ e ∈ X, sp.topElevation < e.1) (hC0 : C.elements ≠ [])
    (w : Switches) (table table' : List (ℝ × Section ℝ))
    (ht : ∀ z ≤ sp.topElevation, (Model.elementSection table' z).map (·.diameter) = (Model.elementSection table z).map (·.diameter))
    (env : Draws) :
    modelSprings p' sp x2' c w table' env = (modelSprings p sp x2 c w table (from_ X.length env)).map (shiftA X.length) := by
  have hlast : p'.sections.getLast? = p.sections.getLast? := by rw [hE, List.getLast?_append_of_ne_nil _ hne]
  have h1 : p'.bottomElevation = p.bottomElevation := by unfold Pile.bottomElevation; rw [hlast]
  have h2 : p'.tipArea Real.pi = p.tipArea Real.pi := by unfold Pile.tipArea; rw [hlast]
  have h3 : p'.tipFootprint Real.pi = p.tipFootprint Real.pi := by unfold Pile.tipFootprint; rw [hlast]
  have hrows : (Model.soilProperties p' sp.geometry x2' c).toOption = (Model.soilProperties p sp.geometry x2 c).toOption.map
      (fun rows => X.map (fun e => ⟨e, none, none, none⟩) ++ rows) := by
    unfold Model.soilProperties
    rw [hC, hC']
    simp only [hX]
    refine rows_above sp.geometry X C.elements hab ?_ hC0
    intro l hm
    obtain ⟨l', hl', rfl⟩ := List.mem_map.1 hm
    exact hl l' hl'
  unfold modelSprings input
  rw [h1, h2, h3, hrows]
  cases hr : (Model.soilProperties p sp.geometry x2 c).toOption with
  | none => rfl
  | some rows =>
    have hrne : rows ≠ [] := by
      refine rows_ne sp.geometry C.elements hC0 rows ?_
      unfold Model.soilProperties at hr
      rw [hC] at hr
      exact hr
    cases p.bottomElevation with
    | none => rfl
    | some tip =>
      cases p.tipArea Real.pi with
      | none => rfl
      | some a =>
        cases p.tipFootprint Real.pi with
        | none => rfl
        | some f =>
          change createSprings (inputOf sp w tip a f ((X.map (fun e => (⟨e, none, none, none⟩ : Model.SoilRow ℝ)) ++ rows).map (rowOf table'))) env
            = (createSprings (inputOf sp w tip a f (rows.map (rowOf table))) (from_ X.length env)).map (shiftA X.length)
          rw [← create_seen (inputOf sp w tip a f ((X.map (fun e => (⟨e, none, none, none⟩ : Model.SoilRow ℝ)) ++ rows).map (rowOf table')))
              sp.topElevation hl, ← create_seen (inputOf sp w tip a f (rows.map (rowOf table))) sp.topElevation hl]
          have := springs_above (inputOf sp w tip a f ((rows.map (rowOf table)).map (seenRow sp.topElevation)))
            _ (X.map (fun e => seenRow sp.topElevation (rowOf table' ⟨e, none, none, none⟩))) rfl (by simpa [inputOf] using hrne) ?_ env
          · rw [List.length_map] at this
            refine Eq.trans ?_ this
            congr 1
            simp only [inputOf, Input.mk.injEq, and_true, List.map_append, List.map_map]
            congr 1
            refine List.map_congr_left (fun r _ => ?_)
            unfold seenRow
            simp only [Function.comp]
            have q := ht r.element.1
            have e1 : ∀ t, (rowOf t r).top = r.element.1 := fun t => rfl
            rw [e1, e1]
            by_cases hle : r.element.1 ≤ sp.topElevation
            · rw [if_pos hle, if_pos hle]
              have := q hle
              unfold rowOf SplitPile.norm
              simp only
              generalize Model.elementSection table' r.element.1 = a at this
              generalize Model.elementSection table r.element.1 = b at this
              rcases a with _ | a <;> rcases b with _ | b
              · rfl
              · cases this
              · cases this
              · simp only [Option.map_some, Option.some.injEq] at this ⊢
                rw [this]
            · rw [if_neg hle, if_neg hle]
              rfl
          · intro r hr l hm
            obtain ⟨e, he, rfl⟩ := List.mem_map.1 hr
            rw [(seen_facts _ _).1]
            exact lt_of_le_of_lt (hl l hm) (hab e he)

/-! ### results -/

section results
open OpenPile.Kernel OpenPile.Winkler OpenPile.Spring OpenPile.Result OpenPile.Analysis OpenPile.SoilAnalysis OpenPile.Props.Stub
open OpenPile.Props.NoModels OpenPile.Props.Element OpenPile.Spec.Kernel OpenPile.Props.Analysis OpenPile.Props.Reported OpenPile.BC OpenPile.Mesh
open OpenPile.Props.Solve OpenPile.Props.Beam OpenPile.Props.Refine
variable {n : ℕ}

theorem double_stub (k : ℕ) (hn : 1 ≤ n) (v' v : List ℝ) (h' : v'.length = n + k + 1) (h : v.length = n + 1)
    (hv : ∀ j, v'[j + k]? = v[j]?) : ∃ x' x, doubleInner v' = some x' ∧ doubleInner v = some x ∧ x'.length = 2 * (n + k) ∧
      x.length = 2 * n ∧ ∀ j, j < 2 * n → x'[2 * k + j]? = x[j]? := by
  obtain ⟨x', a1, a2, a3, a4, a5⟩ := Props.Result.C43_double_inner_partial v' (n + k) (by omega) h'
  obtain ⟨x, b1, b2, b3, b4, b5⟩ := Props.Result.C43_double_inner_partial v n hn h
  refine ⟨x', x, a1, b1, a2, b2, fun j hj => ?_⟩
  rcases Nat.even_or_odd' j with ⟨e, rfl | rfl⟩
  · have := a3 (e + k) (by omega)
    rw [show 2 * (e + k) = 2 * k + 2 * e by omega, hv] at this
    rw [this, b3 e (by omega)]
  · by_cases he : e + 1 < n
    · have := a4 (e + k) (by omega)
      rw [show 2 * (e + k) + 1 = 2 * k + (2 * e + 1) by omega, show e + k + 1 = e + 1 + k by omega, hv] at this
      rw [this, b4 e he]
    · have e1 : e = n - 1 := by omega
      subst e1
      rw [show 2 * (n + k - 1) + 1 = 2 * k + (2 * (n - 1) + 1) by omega, show n + k - 1 = n - 1 + k by omega, hv] at a5
      rw [a5, b5]

theorem flat_stub {α : Type} (k : ℕ) (f : Fin (n + k) → Bool → α) :
    flat (n + k) f = flat k (fun e b => f ⟨e.1, by omega⟩ b) ++ flat n (fun e b => f (e.addNat k) b) := by
  unfold flat
  rw [← List.flatten_append]
  congr 1
  apply List.ext_getElem?
  intro i
  rw [List.getElem?_append]
  simp only [List.length_ofFn]
  by_cases hi : i < k
  · rw [if_pos hi, List.getElem?_ofFn, dif_pos (by omega), List.getElem?_ofFn, dif_pos hi]
  · rw [if_neg hi, List.getElem?_ofFn, List.getElem?_ofFn]
    by_cases hi' : i < n + k
    · rw [dif_pos hi', dif_pos (by omega)]
      have : (⟨i - k, by omega⟩ : Fin n).addNat k = ⟨i, hi'⟩ := Fin.ext (by simp; omega)
      rw [this]
    · rw [dif_neg hi', dif_neg (by omega)]

theorem component_stub (k : ℕ) (d : Fin (3 * (n + k) + 3) → ℝ) (c : Fin 3) (j : ℕ) :
    (component d c)[j + k]? = (component (drop k d) c)[j]? := by
  unfold component
  rw [List.getElem?_ofFn, List.getElem?_ofFn]
  by_cases hj : j < n + 1
  · rw [dif_pos (by omega), dif_pos hj]
    unfold drop
    congr 2
    refine Fin.ext ?_
    simp
    omega
  · rw [dif_neg (by omega), dif_neg hj]

/-- The mobilisation of a pile with further elements without springs on top. -/
theorem mob_stub (k : ℕ) (hn : 1 ≤ n) (w : Switches) (A : Arrays) (S z : List ℝ) (hS : S.length = k) (hz : z.length = n + 1)
    (d : Fin (3 * (n + k) + 3) → ℝ) :
    ∃ X : List (MobRow ℝ), X.length = 2 * k ∧ (∀ r ∈ X, r.pMob = 0 ∧ r.pMax = 0 ∧ r.mMob = 0 ∧ r.mMax = 0) ∧
      springsMob (S ++ z) (component d 1) (component d 2) (flat (n + k) (springsOf w (shiftA k A) (n + k)).py)
          (flat (n + k) (springsOf w (shiftA k A) (n + k)).mt) 15
        = (springsMob z (component (drop k d) 1) (component (drop k d) 2) (flat n (springsOf w A n).py) (flat n (springsOf w A n).mt) 15).map
          (X ++ ·) := by
  obtain ⟨x', x, a1, a2, a3, a4, a5⟩ := double_stub k hn (S ++ z) z (by simp; omega) hz (fun j => by
    rw [List.getElem?_append_right (by omega), hS, Nat.add_sub_cancel])
  obtain ⟨y', y, b1, b2, b3, b4, b5⟩ := double_stub k hn (component d 1) (component (drop k d) 1) (by simp [component]) (by simp [component])
    (component_stub k d 1)
  obtain ⟨v', v, c1, c2, c3, c4, c5⟩ := double_stub k hn (component d 2) (component (drop k d) 2) (by simp [component]) (by simp [component])
    (component_stub k d 2)
  have hpy : flat (n + k) (springsOf w (shiftA k A) (n + k)).py = flat k (fun _ _ => zeros) ++ flat n (springsOf w A n).py := by
    rw [flat_stub]
    congr 1
    · congr 1
      funext e b
      simp [springsOf, shiftA]
    · congr 1
      funext e b
      simp [springsOf, shiftA]
  have hmt : flat (n + k) (springsOf w (shiftA k A) (n + k)).mt
      = flat k (fun _ _ => (zeros.map (·.2)).zip (List.replicate 15 zeros)) ++ flat n (springsOf w A n).mt := by
    rw [flat_stub]
    congr 1
    · congr 1
      funext e b
      simp [springsOf, shiftA]
    · congr 1
      funext e b
      simp [springsOf, shiftA]
  have hget : ∀ {α : Type} (a : α) (L : List α) (i : ℕ), i < 2 * k → (flat k (fun _ _ => a) ++ L)[i]? = some a := by
    intro α a L i hi
    obtain ⟨l1, l2⟩ := flat_get k (fun _ _ => a)
    rw [List.getElem?_append_left (by omega), List.getElem?_eq_getElem (by omega)]
    obtain ⟨_, _, h⟩ := l2 _ (List.getElem_mem (by omega : i < (flat k (fun _ _ => a)).length))
    rw [h]
  have hget' : ∀ {α : Type} (a : α) (L : List α) (i : ℕ), (flat k (fun _ _ => a) ++ L)[2 * k + i]? = L[i]? := by
    intro α a L i
    obtain ⟨l1, -⟩ := flat_get k (fun _ _ => a)
    rw [List.getElem?_append_right (by omega), l1]
    congr 1
    omega
  refine ⟨(List.range (2 * k)).map (fun i : ℕ => ⟨x'.getD i 0, 0, 0, 0, 0⟩), by simp, ?_, ?_⟩
  · intro r hr
    obtain ⟨i, -, rfl⟩ := List.mem_map.1 hr
    exact ⟨rfl, rfl, rfl, rfl⟩
  unfold springsMob
  rw [a1, a2, b1, b2, c1, c2, hpy, hmt]
  simp only [Option.bind_eq_bind, Option.bind_some]
  rw [a3, a4, show 2 * (n + k) = 2 * k + 2 * n by omega, List.range_add, List.mapM_append]
  rw [Props.Weight.mapM_some (f := _) (g := fun i : ℕ => (⟨x'.getD i 0, 0, 0, 0, 0⟩ : MobRow ℝ))]
  · have hcong : ∀ f g : ℕ → Option (MobRow ℝ), ∀ L : List ℕ, (∀ i ∈ L, f (2 * k + i) = g i) →
        (L.map (2 * k + ·)).mapM f = L.mapM g := by
      intro f g L
      induction L with
      | nil => intro _; rfl
      | cons i L ih =>
        intro h
        rw [List.map_cons, List.mapM_cons, List.mapM_cons, h i (by simp), ih (fun i hi => h i (List.mem_cons_of_mem _ hi))]
    rw [hcong _ (fun i : ℕ => x[i]?.bind fun e => y[i]?.bind fun u => v[i]?.bind fun r => (flat n (springsOf w A n).py)[i]?.bind fun tab =>
      (flat n (springsOf w A n).mt)[i]?.bind fun tbl => mobRow e u r tab tbl 15)]
    · simp only [Option.bind_eq_bind, Option.bind_some, Option.pure_def]
      generalize List.mapM (m := Option) _ (List.range (2 * n)) = q
      cases q <;> rfl
    · intro i hi
      rw [List.mem_range] at hi
      rw [a5 i hi, b5 i hi, c5 i hi, hget', hget']
  · intro i hi
    rw [List.mem_range] at hi
    rw [hget _ _ i hi, hget _ _ i hi, List.getElem?_eq_getElem (by omega), List.getElem?_eq_getElem (by omega),
      List.getElem?_eq_getElem (by omega)]
    simp only [Option.bind_some, mobRow_zero]
    rw [List.getD_eq_getElem?_getD, List.getElem?_eq_getElem (by omega)]
    rfl

/-- A result of the pile with a part on top, whose nodes are `S`, seen from the pile without it. -/
structure SeenSoil (S : List ℝ) (t' t : SoilTables) : Prop where
  tables : Seen S t'.toTables t.toTables
  mob : ∃ X, t'.mob = X ++ t.mob ∧ X.length = 2 * S.length ∧ ∀ r ∈ X, r.pMob = 0 ∧ r.pMax = 0 ∧ r.mMob = 0 ∧ r.mMax = 0
  hbMob : t'.hbMob = t.hbMob
  mbMob : t'.mbMob = t.mbMob
  iterations : t'.iterations = t.iterations
  error : t'.error = t.error
  tolerance : t'.tolerance = t.tolerance

/-- How the two analyses end. -/
inductive SameResult (S : List ℝ) : Option SoilResult → Option SoilResult → Prop
  | raised : SameResult S none none
  | nan : SameResult S (some .nan) (some .nan)
  | numbers (t' t : SoilTables) (h : SeenSoil S t' t) : SameResult S (some (.numbers t')) (some (.numbers t))

theorem results_stub (ty : ElementType) (k : ℕ) (hn : 1 ≤ n) (z : Fin (n + k + 1) → ℝ) (hz : StrictAnti z)
    (el : Fin (n + k) → Elem ℝ) (hL : ∀ i, (el i).L = |z i.castSucc - z i.succ|) (hreg : ∀ i, Regular ty (el i)) (w : Switches) (A : Arrays)
    (d Q : Fin (3 * (n + k) + 3) → ℝ) (hd : Quiets ty k el d) (hQ : Top k 0 Q) (it : ℕ) (tolSq resSq : ℝ) :
    SameResult (List.ofFn (fun j : Fin k => z ⟨j.1, by omega⟩))
      ((results ty (List.ofFn z) el (springsOf w (shiftA k A) (n + k)) d Q it tolSq resSq).map .numbers)
      ((results ty (List.ofFn (fun j : Fin (n + 1) => z ⟨j.1 + k, by omega⟩)) (fun i : Fin n => el (i.addNat k)) (springsOf w A n)
        (drop k d) (drop k Q) it tolSq resSq).map .numbers) := by
  obtain ⟨T', T, t1, t2, t3⟩ := tables_stub ty hn k z hz el hL hreg d Q hd hQ
  have hsplit : List.ofFn z = List.ofFn (fun j : Fin k => z ⟨j.1, by omega⟩) ++ List.ofFn (fun j : Fin (n + 1) => z ⟨j.1 + k, by omega⟩) := by
    apply List.ext_getElem?
    intro i
    rw [List.getElem?_append]
    simp only [List.length_ofFn]
    by_cases hi : i < k
    · rw [if_pos hi, List.getElem?_ofFn, dif_pos (by omega), List.getElem?_ofFn, dif_pos hi]
    · rw [if_neg hi, List.getElem?_ofFn, List.getElem?_ofFn]
      by_cases hi' : i < n + k + 1
      · rw [dif_pos hi', dif_pos (by omega)]
        congr 2
        refine Fin.ext ?_
        simp
        omega
      · rw [dif_neg hi', dif_neg (by omega)]
  obtain ⟨X, x1, x2, x3⟩ := mob_stub k hn w A (List.ofFn (fun j : Fin k => z ⟨j.1, by omega⟩))
    (List.ofFn (fun j : Fin (n + 1) => z ⟨j.1 + k, by omega⟩)) (by simp) (by simp) d
  rw [← hsplit] at x3
  have f1 : (springsOf w (shiftA k A) (n + k)).ncol = 15 := rfl
  have f2 : (springsOf w A n).ncol = 15 := rfl
  have f3 : (springsOf w (shiftA k A) (n + k)).hb = A.hb := rfl
  have f4 : (springsOf w (shiftA k A) (n + k)).mb = A.mb := rfl
  have f5 : (springsOf w A n).hb = A.hb := rfl
  have f6 : (springsOf w A n).mb = A.mb := rfl
  have d1 : ∀ c h h', drop k d ⟨3 * n + c, h⟩ = d ⟨3 * (n + k) + c, h'⟩ := by
    intro c h h'
    unfold drop
    congr 1
    refine Fin.ext ?_
    simp only
    omega
  unfold results
  rw [t1, t2, f1, f2, f3, f4, f5, f6, x3, d1 1 _ (by omega), d1 2 _ (by omega)]
  simp only [Option.bind_eq_bind, Option.bind_some]
  cases springsMob (List.ofFn (fun j : Fin (n + 1) => z ⟨j.1 + k, by omega⟩)) (component (drop k d) 1) (component (drop k d) 2)
      (flat n (springsOf w A n).py) (flat n (springsOf w A n).mt) 15 with
  | none => exact .raised
  | some M =>
    cases baseMob A.hb (d ⟨3 * (n + k) + 1, by omega⟩) with
    | none => exact .raised
    | some hb =>
      cases baseMob A.mb (d ⟨3 * (n + k) + 2, by omega⟩) with
      | none => exact .raised
      | some mb =>
        refine .numbers _ _ ⟨t3, ⟨X, rfl, by rw [x1]; simp, x2⟩, rfl, rfl, rfl, rfl, rfl⟩

theorem raises (ty : ElementType) (p : Pile ℝ) (C : Coordinates ℝ) (w : Switches) (A : Arrays) (bcs : List (Cond ℝ)) (m : ℕ)
    (hv : ¬ ∀ cls, validateBc bcs cls = .ok ()) : solveSoilOn ty p C w A bcs m = none := by
  by_contra hne
  apply hv
  have key : ∀ cls, (∃ f, validateBc bcs cls = .error f) ∨ validateBc bcs cls = .ok () := by
    intro cls
    cases h : validateBc bcs cls with
    | error f => exact Or.inl ⟨f, rfl⟩
    | ok u => exact Or.inr rfl
  unfold solveSoilOn globalForces globalDisp globalRestrained at hne
  rcases key .force with ⟨f, hf⟩ | hf
  · rw [hf] at hne
    exact absurd rfl hne
  rcases key .displacement with ⟨f, hd⟩ | hd
  · rw [hf, hd] at hne
    exact absurd rfl hne
  rcases key .fixation with ⟨f, hx⟩ | hx
  · rw [hf, hd, hx] at hne
    exact absurd rfl hne
  intro cls
  cases cls
  · exact hx
  · exact hd
  · exact hf

/-- How an analysis with soil continues after reading its input. -/
noncomputable def finish (ty : ElementType) (nodes : List ℝ) (el : Fin n → Elem ℝ) (sp : Springs ℝ n) :
    Outcome (Fin (3 * n + 3)) ℝ → Option SoilResult
  | .raised => none
  | .nan _ => some .nan
  | .converged d Q it tolSq resSq => (results ty nodes el sp d Q it tolSq resSq).map .numbers
  | .exhausted d Q it tolSq resSq => (results ty nodes el sp d Q it tolSq resSq).map .numbers

theorem soil_read (ty : ElementType) {p : Pile ℝ} {top tip : ℝ} (hp : Stack p top tip) {C : Coordinates ℝ} (h : MeshOn p top tip C)
    (w : Switches) (A : Arrays) (bcs : List (Cond ℝ)) (m : ℕ) (hv : ∀ cls, validateBc bcs cls = .ok ()) :
    ∃ (z : Fin (C.elements.length + 1) → ℝ) (el : Fin C.elements.length → Elem ℝ)
      (F U : Fin (3 * C.elements.length + 3) → ℝ) (R : Fin (3 * C.elements.length + 3) → Bool)
      (g : Nodal ℤ) (gU : Nodal ℝ) (gR : Nodal Bool),
      1 ≤ C.elements.length ∧ C.nodes = List.ofFn z ∧ StrictAnti z ∧ ElementsOn Real.pi p z el ∧
      globalForces C.nodes bcs = .ok g ∧ globalDisp C.nodes bcs = .ok gU ∧ globalRestrained C.nodes bcs = .ok gR ∧
      (∀ d, (g.get (axisOf d)).map (fun i : ℤ => (i : ℝ)) = List.ofFn (fun j => F (dof j d))) ∧
      (∀ d, gU.get (axisOf d) = List.ofFn (fun j => U (dof j d))) ∧
      (∀ d, gR.get (axisOf d) = List.ofFn (fun j => R (dof j d))) ∧
      solveSoilOn ty p C w A bcs m = finish ty (List.ofFn z) el (springsOf w A C.elements.length)
        (winkler (buildStiffness ty el (springsOf w A C.elements.length)) F U R m) := by
  obtain ⟨z, el, F, U, R, b1, b2, b3, -, -, b6, b7, b8, b9, hzz, ⟨gF, F0, F1⟩, ⟨gU, U0, U1⟩, ⟨gR, R0, R1⟩, hel⟩ :=
    read_eq Real.pi hp h bcs hv
  refine ⟨z, el, F, U, R, _, _, _, b1, hzz, b2, b6,
    by unfold globalForces; rw [hv]; rfl, by unfold globalDisp; rw [hv]; rfl,
    by unfold globalRestrained; rw [hv]; rfl, ?_, ?_, ?_, ?_⟩
  · intro d
    rw [hzz, column_ofFn, List.map_ofFn]
    congr 1
    funext j
    rw [b7]
    rfl
  · intro d
    rw [hzz, column_ofFn]
    congr 1
    funext j
    rw [b8]
  · intro d
    rw [hzz, column_ofFn]
    congr 1
    funext j
    rw [b9]
  · unfold solveSoilOn
    rw [F0, U0, R0]
    simp only [bind, Except.toOption, Option.bind_some]
    rw [F1, U1, R1]
    simp only [Option.bind_some]
    rw [hel, ← hzz, Option.bind_some]
    cases winkler (buildStiffness ty el (springsOf w A C.elements.length)) F U R m <;> rfl

/-- **C99, with soil, on given meshes.** The additional elements carry no springs. -/
theorem C99_soil_tables (ty : ElementType) (p p' : Pile ℝ) (E : List (Section ℝ)) (top top' tip : ℝ)
    (hp : Stack p top tip) (hp' : Stack p' top' tip) (hE : p'.sections = E ++ p.sections) (hmat : p'.material = p.material)
    (hreg : ∀ s ∈ p'.sections, ∀ L : ℝ, 0 < L → Regular ty (elemOf Real.pi p'.material s L)) (C C' : Coordinates ℝ)
    (h : MeshOn p top tip C) (h' : MeshOn p' top' tip C') (S : List ℝ) (hS : C'.nodes = S ++ C.nodes) (w : Switches)
    (hw : w.distributedMoment = true → w.distributedLateral = true) (A : Arrays) (bcs : List (Cond ℝ))
    (hclear : ∀ c ∈ bcs, ∀ x ∈ S, isClose x c.elevation = false) (m : ℕ) :
    SameResult S (solveSoilOn ty p' C' w (shiftA S.length A) bcs m) (solveSoilOn ty p C w A bcs m) := by
  by_cases hv : ∀ cls, validateBc bcs cls = .ok ()
  swap
  · rw [raises ty p C w A bcs m hv, raises ty p' C' w _ bcs m hv]
    exact .raised
  obtain ⟨z, el, F, U, R, g, gU, gR, n1, hz, hanti, hel, hg, hgU, hgR, hF, hUv, hRv, hs⟩ := soil_read ty hp h w A bcs m hv
  have read' := soil_read ty hp' h' w (shiftA S.length A) bcs m hv
  have hn : C.nodes.length = C.elements.length + 1 := by rw [hz, List.length_ofFn]
  have hlen : C'.elements.length = C.elements.length + S.length := by
    obtain ⟨z', _, _, _, _, _, _, _, _, hz', _⟩ := read'
    have : C'.nodes.length = C'.elements.length + 1 := by rw [hz', List.length_ofFn]
    rw [hS, List.length_append] at this
    omega
  rw [hlen] at read'
  obtain ⟨z', el', F', U', R', g', gU', gR', -, hz', hanti', hel', hg', hgU', hgR', hF', hUv', hRv', hs'⟩ := read'
  rw [hs, hs']
  clear hs hs'
  generalize hk : S.length = k at *
  generalize hm : C.elements.length = n at *
  obtain ⟨hzS, hz0, helem, ⟨fT, fD⟩, ⟨uT, uD⟩, rT, rD⟩ := read_stub Real.pi p p' E hE hmat C C' S hS bcs hclear hv k hk z el F U R g gU gR
    hz hel hg hgU hgR hF hUv hRv z' el' F' U' R' g' gU' gR' hz' hel' hg' hgU' hgR' hF' hUv' hRv'
  have hrg := regular_of_elements hreg hanti' hel'
  have hb : below k (springsOf w (shiftA k A) (n + k)) = springsOf w A n := by
    simp [Stub.below, springsOf, shiftA]
  have hidle : Idles k (springsOf w (shiftA k A) (n + k)) := by
    refine ⟨?_, ?_, ?_⟩
    · intro i hi b q hq
      simp only [springsOf, shiftA, if_pos hi] at hq
      rw [List.eq_of_mem_replicate hq]
    · intro i hi b q hq
      simp only [springsOf, shiftA, if_pos hi] at hq
      rw [List.eq_of_mem_replicate hq]
    · intro _ i hi b
      simp only [springsOf, shiftA, if_pos hi]
      refine ⟨by simp [zeros], ?_⟩
      intro r hr q hq
      have h2 := (List.of_mem_zip (a := r.1) (b := r.2) hr).2
      rw [List.eq_of_mem_replicate h2] at hq
      rw [List.eq_of_mem_replicate hq]
  have main := C99_soil ty k el' (fun i _ => hrg i) (springsOf w (shiftA k A) (n + k)) hidle hw F' U' R' fT uT rT m
  rw [hb, fD, uD, rD, helem] at main
  generalize winkler (buildStiffness ty el' (springsOf w (shiftA k A) (n + k))) F' U' R' m = o' at main
  generalize winkler (buildStiffness ty el (springsOf w A n)) F U R m = o at main
  have hres : ∀ d Q it t r, Quiets ty k el' d → Stub.Top k 0 Q →
      SameResult S ((results ty (List.ofFn z') el' (springsOf w (shiftA k A) (n + k)) d Q it t r).map .numbers)
        ((results ty (List.ofFn z) el (springsOf w A n) (drop k d) (drop k Q) it t r).map .numbers) := by
    intro d Q it t r hd hQ
    have := results_stub ty k n1 z' hanti' el' (length_of_elementsOn hel') hrg w A d Q hd hQ it t r
    rw [hzS, hz0, helem] at this
    exact this
  cases main with
  | converged d Q it t r hd hQ => exact hres d Q it t r hd hQ
  | exhausted d Q it t r hd hQ => exact hres d Q it t r hd hQ
  | nan it => exact .nan
  | raised => exact .raised

/-! ### from the public calls -/

/-- The elements of a mesh with further nodes on top. -/
theorem pairs_above (S z : List ℝ) (hz : z ≠ []) : ∃ X, (S ++ z).zip (S ++ z).tail = X ++ z.zip z.tail ∧ X.length = S.length ∧ ∀ e ∈ X, e.1 ∈ S := by
  induction S with
  | nil => exact ⟨[], rfl, rfl, by simp⟩
  | cons a S ih =>
    obtain ⟨X, h1, h2, h3⟩ := ih
    obtain ⟨b, l, hb⟩ : ∃ b l, S ++ z = b :: l := by
      cases hc : S ++ z with
      | nil => exact absurd (List.append_eq_nil_iff.1 hc).2 hz
      | cons b l => exact ⟨b, l, rfl⟩
    refine ⟨(a, b) :: X, ?_, by simp [h2], ?_⟩
    · rw [List.cons_append, List.cons_append, ← h1, hb]
      simp
    · intro e he
      rcases List.mem_cons.1 he with rfl | he
      · simp
      · exact List.mem_cons_of_mem _ (h3 e he)

/-- The meshes of both Models. -/
theorem meshes (p p' : Pile ℝ) (E : List (Section ℝ)) (hE : p'.sections = E ++ p.sections) (sp : SoilProfile) (x2 y : List ℝ)
    (c top top' tip : ℝ) (h : Weight.Setup p sp.geometry x2 c top tip) (h' : Weight.Setup p' sp.geometry (y ++ x2) c top' tip)
    (hy : ∀ x ∈ y, top ≤ x) :
    ∃ S X C C', getCoordinates p (some sp.geometry) x2 c = some C ∧ getCoordinates p' (some sp.geometry) (y ++ x2) c = some C' ∧
      C'.nodes = S ++ C.nodes ∧ C'.elements = X ++ C.elements ∧ X.length = S.length ∧ (∀ x ∈ S, top < x) ∧ (∀ e ∈ X, top < e.1) ∧
      MeshOn p top tip C ∧ MeshOn p' top' tip C' ∧ C.elements ≠ [] := by
  have hst := stack_setup h
  have hst' := stack_setup h'
  obtain ⟨f, l, hfl⟩ : ∃ f l, p.sections = f :: l := by
    cases hs : p.sections with
    | nil =>
      have := h.head
      unfold Pile.topElevation at this
      rw [hs] at this
      cases this
    | cons f l => exact ⟨f, l, rfl⟩
  have hftop : f.top = top := by
    have := h.head
    unfold Pile.topElevation at this
    rw [hfl] at this
    simpa using this
  have hb' : ∀ s ∈ p'.sections, s.bottom < s.top := fun s hs => (h'.sections s hs).2
  have hbp : ∀ s ∈ p.sections, s.bottom < s.top := fun s hs => (h.sections s hs).2
  obtain ⟨secs, mat, hmk, hsb⟩ := h.pile
  obtain ⟨hch, -⟩ := mkPile_sections secs mat p hmk
  obtain ⟨secs', mat', hmk', hsb'⟩ := h'.pile
  obtain ⟨hch', -⟩ := mkPile_sections secs' mat' p' hmk'
  have hEtop : ∀ s ∈ E, top ≤ s.bottom := by
    rw [hE, hfl] at hch'
    rw [← hftop]
    exact above_stack f l E hch' (fun s hs => hb' s (by rw [hE]; exact List.mem_append_left _ hs))
  have hptop : ∀ s ∈ p.sections, s.top ≤ top := by
    intro s hs
    obtain ⟨f', hf', _, _, h1, _⟩ := stack_bounds p.sections hbp hch s hs
    rw [hfl, List.head?_cons] at hf'
    rw [← hftop, Option.some.inj hf']
    exact h1
  have hltop : ∀ l ∈ sp.geometry.layers, l.bottom < l.top ∧ l.top ≤ top := by
    obtain ⟨C, -, hm⟩ := Weight.mesh_facts h
    exact fun l hl => ⟨(hm.lays l hl).1, (hm.lays l hl).2.2.trans h.below⟩
  have hreqtop : Spec.Mesh.Required p tip (some sp.geometry) x2 top := Or.inl ⟨f, by rw [hfl]; simp, Or.inl hftop.symm⟩
  have hreq : ∀ r, Spec.Mesh.Required p tip (some sp.geometry) x2 r ↔
      Spec.Mesh.Required p' tip (some sp.geometry) (y ++ x2) r ∧ r ≤ top := by
    intro r
    constructor
    · rintro (⟨s, hs, h1⟩ | ⟨q, hq, l, hl, h1, h2⟩ | h1)
      · refine ⟨Or.inl ⟨s, by rw [hE]; exact List.mem_append_right _ hs, h1⟩, ?_⟩
        rcases h1 with rfl | rfl
        · exact hptop s hs
        · exact (hbp s hs).le.trans (hptop s hs)
      · refine ⟨Or.inr (Or.inl ⟨q, hq, l, hl, h1, h2⟩), ?_⟩
        cases hq
        have := hltop l hl
        rcases h1 with rfl | rfl
        · exact this.2
        · exact this.1.le.trans this.2
      · exact ⟨Or.inr (Or.inr (List.mem_append_right _ h1)), h.inside r h1⟩
    · rintro ⟨⟨s, hs, h1⟩ | h1 | h1, hr⟩
      · rw [hE, List.mem_append] at hs
        rcases hs with hs | hs
        · have h2 := hEtop s hs
          have h3 := hb' s (by rw [hE]; exact List.mem_append_left _ hs)
          have : r = top := by
            rcases h1 with rfl | rfl
            · exact absurd hr (not_le.2 (lt_of_le_of_lt h2 h3))
            · exact le_antisymm hr h2
          rw [this]
          exact hreqtop
        · exact Or.inl ⟨s, hs, h1⟩
      · exact Or.inr (Or.inl h1)
      · rcases List.mem_append.1 h1 with h1 | h1
        · rw [le_antisymm hr (hy r h1)]
          exact hreqtop
        · exact Or.inr (Or.inr h1)
  obtain ⟨X, z, hz, hz', -⟩ := mesh_stub p p' (some sp.geometry) x2 (y ++ x2) c top tip (lt_of_lt_of_le (by norm_num) h.coarse) h.tip_eq h'.tip_eq
    hreq hreqtop
  obtain ⟨C, hC, hm⟩ := meshOn_setup h
  obtain ⟨C', hC', hm'⟩ := meshOn_setup h'
  have hnodes : C.nodes = z.map round4 ∧ C'.nodes = X.map round4 ++ z.map round4 := by
    unfold getCoordinates at hC hC'
    rw [hz] at hC
    rw [hz'] at hC'
    cases hC
    cases hC'
    exact ⟨rfl, List.map_append⟩
  have hS : C'.nodes = X.map round4 ++ C.nodes := by rw [hnodes.1, hnodes.2]
  have hSt : ∀ x ∈ X.map round4, top < x := by
    intro x hx
    have := hm'.dec
    rw [hS] at this
    exact (List.pairwise_append.1 this).2.2 x hx top (List.mem_of_mem_head? hm.first)
  have hne : C.nodes ≠ [] := by
    intro h0
    have := hm.first
    rw [h0] at this
    cases this
  obtain ⟨P, h1, h2, h3⟩ := pairs_above (X.map round4) C.nodes hne
  refine ⟨X.map round4, P, C, C', hC, hC', hS, ?_, h2, hSt, fun e he => hSt _ (h3 e he), hm, hm', ?_⟩
  · rw [hm'.elements, hS, h1, hm.elements]
  · intro h0
    have hf := hm.sections f (by rw [hfl]; simp)
    have hlt := hbp f (by rw [hfl]; simp)
    have hel := hm.elements
    rw [h0] at hel
    cases hc : C.nodes with
    | nil => exact hne hc
    | cons a l =>
      cases l with
      | nil =>
        rw [hc] at hf
        simp only [List.mem_singleton] at hf
        rw [hf.1, hf.2] at hlt
        exact lt_irrefl _ hlt
      | cons b l =>
        rw [hc] at hel
        cases hel

/-- **C99, with soil, as the user meets it.** Two piles of the same material, the second one with further sections `E` on top
and further elevations `y` for the mesh in that part; the draws of the springs belong to the elements; near and below the
ground the tables of `element_properties` read the same diameters.  The second Model has the springs of the first, and none
for the further elements; its analysis ends in the same way, with the same results below. -/
theorem C99_soil_model (ty : ElementType) (uw Em nu : ℝ) (p p' : Pile ℝ) (E : List (Section ℝ)) (hE : p'.sections = E ++ p.sections)
    (hmm : p'.material = p.material) (hm : Pile.mkMaterial uw Em nu = some p'.material) (hnu : ty = .timoshenko → -(3 / 4) ≤ nu)
    (hb : ∀ s ∈ p'.sections, Spec.Pile.Built s ∧ s.thickness < s.diameter) (sp : SoilProfile) (x2 y : List ℝ) (c top top' tip : ℝ)
    (h : Weight.Setup p sp.geometry x2 c top tip) (h' : Weight.Setup p' sp.geometry (y ++ x2) c top' tip) (hy : ∀ x ∈ y, top ≤ x)
    (w : Switches) (hw : w.distributedMoment = true → w.distributedLateral = true) (table table' : List (ℝ × Section ℝ))
    (ht : ∀ z ≤ sp.topElevation, (Model.elementSection table' z).map (·.diameter) = (Model.elementSection table z).map (·.diameter))
    (env : Draws) :
    ∃ S C C', getCoordinates p (some sp.geometry) x2 c = some C ∧ getCoordinates p' (some sp.geometry) (y ++ x2) c = some C' ∧
      C'.nodes = S ++ C.nodes ∧ (∀ x ∈ S, top < x) ∧
      modelSprings p' sp (y ++ x2) c w table' env = (modelSprings p sp x2 c w table (from_ S.length env)).map (shiftA S.length) ∧
      ∀ bcs : List (Cond ℝ), (∀ b ∈ bcs, ∀ x ∈ S, isClose x b.elevation = false) →
        SameResult S (solveSoil ty p' sp (y ++ x2) c w table' env bcs) (solveSoil ty p sp x2 c w table (from_ S.length env) bcs) := by
  obtain ⟨S, X, C, C', hC, hC', hS, hX, hlen, hSt, hXt, hmo, hmo', hne⟩ := meshes p p' E hE sp x2 y c top top' tip h h' hy
  have hl : ∀ l ∈ sp.layers, l.top ≤ sp.topElevation := by
    obtain ⟨C, -, hm⟩ := Weight.mesh_facts h
    exact fun l hl => (hm.lays l.toLayer (List.mem_map_of_mem hl)).2.2
  have hsec : p.sections ≠ [] := by
    intro h0
    have := h.head
    unfold Pile.topElevation at this
    rw [h0] at this
    cases this
  have hsp := springs_stub p p' E hE hsec sp hl x2 (y ++ x2) c C C' hC hC' X hX (fun e he => lt_of_le_of_lt h.below (hXt e he)) hne w table table' ht env
  rw [hlen] at hsp
  refine ⟨S, C, C', hC, hC', hS, hSt, hsp, fun bcs hclear => ?_⟩
  unfold solveSoil
  rw [hC, hC', hsp]
  cases modelSprings p sp x2 c w table (from_ S.length env) with
  | none => exact .raised
  | some A =>
    exact C99_soil_tables ty p p' E top top' tip (stack_setup h) (stack_setup h') hE hmm
      (fun s hs L hL => regular_of_built Real.pi Real.pi_pos ty uw Em nu p'.material hm hnu s (hb s hs).1 (hb s hs).2 L hL)
      C C' hmo hmo' S hS w hw A bcs hclear 100

/-! ### which diameters the springs read -/

theorem sections_above {p p' : Pile ℝ} {E : List (Section ℝ)} (hE : p'.sections = E ++ p.sections) (hv' : Valid p') {f : Section ℝ}
    {l : List (Section ℝ)} (hf : p.sections = f :: l) : ∀ s ∈ E, f.top ≤ s.bottom := by
  obtain ⟨hst, hbt, -⟩ := hv'.stack
  have hord := Model.stack_order p'.sections hbt hst
  rw [hE, hf, List.pairwise_append] at hord
  exact fun s hs => hord.2.2 s hs f (List.mem_cons_self ..)

/-- With rows sorted stably, the springs below the level `g` read the same diameters if the section just above the old
pile has the diameter of the old topmost section, or if that section ends above `g`. -/
theorem stable_stub {p p' : Pile ℝ} {E : List (Section ℝ)} (hE : p'.sections = E ++ p.sections) (hv : Valid p) (hv' : Valid p')
    {f : Section ℝ} {l : List (Section ℝ)} (hf : p.sections = f :: l) {g : ℝ} (hg : g ≤ f.top)
    (hd : ∀ e, E.getLast? = some e → e.diameter = f.diameter ∨ g ≤ f.bottom) :
    ∀ z ≤ g, (Model.elementSection (Model.stableRows p') z).map (·.diameter) =
      (Model.elementSection (Model.stableRows p) z).map (·.diameter) := by
  intro z hz
  have hab := sections_above hE hv' hf
  have hP : ∀ x ∈ E, (fun x : Section ℝ => decide (z ≤ x.bottom)) x = true := fun x hx =>
    decide_eq_true (hz.trans (hg.trans (hab x hx)))
  rw [stable_section hv, stable_section hv', hE, List.takeWhile_append_of_pos hP]
  by_cases hT : p.sections.takeWhile (fun x : Section ℝ => decide (z ≤ x.bottom)) = []
  · rw [hT, List.append_nil]
    simp only [List.getLast?_nil]
    have hzf : f.bottom < z := by
      by_contra hc
      rw [hf, List.takeWhile_cons_of_pos (a := f) (by simpa using hc)] at hT
      cases hT
    cases he : E.getLast? with
    | none =>
      rw [List.getLast?_eq_none_iff.1 he]
      rfl
    | some e =>
      rw [hf, List.head?_cons]
      simp only [Option.bind_some, if_pos (hz.trans hg), Option.map_some, Option.some.injEq]
      exact (hd e he).resolve_right (fun h => absurd (lt_of_lt_of_le hzf (hz.trans h)) (lt_irrefl _))
  · rw [List.getLast?_append_of_ne_nil _ hT]
    cases hl : (p.sections.takeWhile (fun x : Section ℝ => decide (z ≤ x.bottom))).getLast? with
    | none => exact absurd (List.getLast?_eq_none_iff.1 hl) hT
    | some y => rfl

/-- A pile of one diameter: the springs read it however the rows are sorted. -/
theorem one_diameter {p : Pile ℝ} {d : ℝ} (hd : ∀ x ∈ p.sections, x.diameter = d) {f : Section ℝ} (hf : f ∈ p.sections)
    {table : List (ℝ × Section ℝ)} (ht : Model.SortedRows p table) {z : ℝ} (hz : z ≤ f.top) :
    (Model.elementSection table z).map (·.diameter) = some d := by
  obtain ⟨r, hr⟩ := Model.mergeForward_isSome (·.1) table z (f.top, f)
    (by rw [ht.1.mem_iff, Model.mem_pileRows]; exact ⟨hf, Or.inl rfl⟩) hz
  unfold Model.elementSection
  rw [hr]
  have hm : r ∈ table := by
    unfold Model.mergeForward at hr
    exact List.mem_of_find?_eq_some hr
  rw [ht.1.mem_iff, Model.mem_pileRows] at hm
  simp [hd r.2 hm.1]

theorem valid_setup {p : Pile ℝ} {g : Soil.Profile ℝ} {x2 : List ℝ} {c top tip : ℝ} (h : Weight.Setup p g x2 c top tip) : Valid p := h.pile

/-- **C99, with soil, rows sorted stably.** -/
theorem C99_soil_stable (ty : ElementType) (uw Em nu : ℝ) (p p' : Pile ℝ) (E : List (Section ℝ)) (hE : p'.sections = E ++ p.sections)
    (hmm : p'.material = p.material) (hm : Pile.mkMaterial uw Em nu = some p'.material) (hnu : ty = .timoshenko → -(3 / 4) ≤ nu)
    (hb : ∀ s ∈ p'.sections, Spec.Pile.Built s ∧ s.thickness < s.diameter) (sp : SoilProfile) (x2 y : List ℝ) (c top top' tip : ℝ)
    (h : Weight.Setup p sp.geometry x2 c top tip) (h' : Weight.Setup p' sp.geometry (y ++ x2) c top' tip) (hy : ∀ x ∈ y, top ≤ x)
    (hd : ∀ f e, p.sections.head? = some f → E.getLast? = some e → e.diameter = f.diameter ∨ sp.topElevation ≤ f.bottom)
    (w : Switches) (hw : w.distributedMoment = true → w.distributedLateral = true) (env : Draws) :
    ∃ S C C', getCoordinates p (some sp.geometry) x2 c = some C ∧ getCoordinates p' (some sp.geometry) (y ++ x2) c = some C' ∧
      C'.nodes = S ++ C.nodes ∧ (∀ x ∈ S, top < x) ∧
      modelSprings p' sp (y ++ x2) c w (Model.stableRows p') env =
        (modelSprings p sp x2 c w (Model.stableRows p) (from_ S.length env)).map (shiftA S.length) ∧
      ∀ bcs : List (Cond ℝ), (∀ b ∈ bcs, ∀ x ∈ S, isClose x b.elevation = false) →
        SameResult S (solveSoil ty p' sp (y ++ x2) c w (Model.stableRows p') env bcs)
          (solveSoil ty p sp x2 c w (Model.stableRows p) (from_ S.length env) bcs) := by
  obtain ⟨f, hf⟩ : ∃ f, p.sections.head? = some f ∧ f.top = top := by
    have := h.head
    unfold Pile.topElevation at this
    simpa using this
  obtain ⟨l, hl⟩ : ∃ l, p.sections = f :: l := List.head?_eq_some_iff.1 hf.1
  exact C99_soil_model ty uw Em nu p p' E hE hmm hm hnu hb sp x2 y c top top' tip h h' hy w hw _ _
    (stable_stub hE (valid_setup h) (valid_setup h') hl (h.below.trans hf.2.ge) (fun e he => hd f e hf.1 he)) env

/-- **C99, with soil, one diameter.** The rows of both tables may be sorted in any way. -/
theorem C99_soil_one_diameter (ty : ElementType) (uw Em nu : ℝ) (p p' : Pile ℝ) (E : List (Section ℝ)) (hE : p'.sections = E ++ p.sections)
    (hmm : p'.material = p.material) (hm : Pile.mkMaterial uw Em nu = some p'.material) (hnu : ty = .timoshenko → -(3 / 4) ≤ nu)
    (hb : ∀ s ∈ p'.sections, Spec.Pile.Built s ∧ s.thickness < s.diameter) (sp : SoilProfile) (x2 y : List ℝ) (c top top' tip : ℝ)
    (h : Weight.Setup p sp.geometry x2 c top tip) (h' : Weight.Setup p' sp.geometry (y ++ x2) c top' tip) (hy : ∀ x ∈ y, top ≤ x)
    (d : ℝ) (hd : ∀ s ∈ p'.sections, s.diameter = d)
    (w : Switches) (hw : w.distributedMoment = true → w.distributedLateral = true) (table table' : List (ℝ × Section ℝ))
    (ht : Model.SortedRows p table) (ht' : Model.SortedRows p' table') (env : Draws) :
    ∃ S C C', getCoordinates p (some sp.geometry) x2 c = some C ∧ getCoordinates p' (some sp.geometry) (y ++ x2) c = some C' ∧
      C'.nodes = S ++ C.nodes ∧ (∀ x ∈ S, top < x) ∧
      modelSprings p' sp (y ++ x2) c w table' env = (modelSprings p sp x2 c w table (from_ S.length env)).map (shiftA S.length) ∧
      ∀ bcs : List (Cond ℝ), (∀ b ∈ bcs, ∀ x ∈ S, isClose x b.elevation = false) →
        SameResult S (solveSoil ty p' sp (y ++ x2) c w table' env bcs) (solveSoil ty p sp x2 c w table (from_ S.length env) bcs) := by
  obtain ⟨f, hf⟩ : ∃ f, p.sections.head? = some f ∧ f.top = top := by
    have := h.head
    unfold Pile.topElevation at this
    simpa using this
  have hmem := List.mem_of_mem_head? hf.1
  refine C99_soil_model ty uw Em nu p p' E hE hmm hm hnu hb sp x2 y c top top' tip h h' hy w hw _ _ (fun z hz => ?_) env
  have hz' : z ≤ f.top := hz.trans (h.below.trans hf.2.ge)
  rw [one_diameter (fun x hx => hd x (by rw [hE]; exact List.mem_append_right _ hx)) hmem ht hz',
    one_diameter hd (by rw [hE]; exact List.mem_append_right _ hmem) ht' hz']

/-- **C99 is violated** for an unloaded part of another diameter: with rows sorted stably, the soil in front of the old topmost
section uses the diameter `e.diameter` of the section put on top of it, which stands in the air.  Clay: the shaft friction of
every such element is multiplied by the quotient of the diameters. -/
theorem C99_violated_friction (p p' : Pile ℝ) (P : List (Section ℝ)) (e f : Section ℝ) (L : List (Section ℝ)) (hf : p.sections = f :: L)
    (hE : p'.sections = (P ++ [e]) ++ p.sections) (sp : SoilProfile) (x2 y : List ℝ) (c top top' tip : ℝ)
    (h : Weight.Setup p sp.geometry x2 c top tip) (h' : Weight.Setup p' sp.geometry (y ++ x2) c top' tip) (hy : ∀ x ∈ y, top ≤ x)
    (w : Switches) (hw : w.distributedAxial = true) (env : Draws) (henv : Props.Capacity.GoodDraws env) (henv' : Props.Capacity.GoodTip env)
    (henv'' : Props.Capacity.GoodLateral env)
    (hclay : ∀ l ∈ sp.layers, ∃ m, l.axial = some (.clay m) ∧ Props.Capacity.Sound (l.top - l.bottom) (.clay m) ∧ 0 < m.tMul)
    (hlat : ∀ l ∈ sp.layers, ∀ m, l.lateral = some m → ∀ s ∈ p'.sections, Spec.Sound.Lateral s.diameter (sp.topElevation - tip) m) :
    ∃ X C C' A A', getCoordinates p (some sp.geometry) x2 c = some C ∧ getCoordinates p' (some sp.geometry) (y ++ x2) c = some C' ∧
      C'.elements = X ++ C.elements ∧
      modelSprings p sp x2 c w (Model.stableRows p) (from_ X.length env) = some A ∧
      modelSprings p' sp (y ++ x2) c w (Model.stableRows p') env = some A' ∧
      ∀ (i : ℕ) (x : ℝ × ℝ), C.elements[i]? = some x → f.bottom < x.1 → x.1 ≤ sp.topElevation → ∀ b, ∃ q, 0 < q ∧
        Extract.rowMin (Capacity.rows (A.tz i b)).r = some (-q) ∧
        Extract.rowMin (Capacity.rows (A'.tz (i + X.length) b)).r = some (-(q * (e.diameter / f.diameter))) := by
  obtain ⟨S, X, C, C', hC, hC', hS, hX, hlen, hSt, hXt, hmo, hmo', hne⟩ := meshes p p' (P ++ [e]) hE sp x2 y c top top' tip h h' hy
  have hsound : ∀ l ∈ sp.layers, ∀ m, l.axial = some m → Props.Capacity.Sound (l.top - l.bottom) m := by
    intro l hl m hm'
    obtain ⟨m', e, h3, -⟩ := hclay l hl
    rw [hm'] at e
    cases e
    exact h3
  have hr : ∀ y : Pile ℝ, Model.SortedRows y (Model.stableRows y) := fun y => ⟨Py.sortedBy_perm _ _, Py.sortedBy_pairwise _ _⟩
  have g1 : Props.Capacity.GoodDraws (from_ X.length env) := fun z j b => henv z (j + X.length) b
  have g2 : Props.Capacity.GoodTip (from_ X.length env) := fun z j => henv' z (j + X.length)
  have g3 : Props.Capacity.GoodLateral (from_ X.length env) :=
    ⟨fun z j b => henv''.1 z (j + X.length) b, fun z j b => henv''.2 z (j + X.length) b⟩
  obtain ⟨C₁, I, water, fc, ft, A, hC₁, hI, -, -, hlay, -, -, hrows, -, hfr, hA⟩ :=
    Props.Capacity.C64_setup h w (hr p) g1 g2 g3 hsound
      (fun l hl m hm' s hs => hlat l hl m hm' s (by rw [hE]; exact List.mem_append_right _ hs))
  obtain ⟨C₂, I', water', fc', ft', A', hC₂, hI', -, -, hlay', -, -, hrows', -, hfr', hA'⟩ :=
    Props.Capacity.C64_setup h' w (hr p') henv henv' henv'' hsound hlat
  have hmA : modelSprings p sp x2 c w (Model.stableRows p) (from_ X.length env) = some A := by
    unfold modelSprings
    rw [hI]
    exact hA
  have hmA' : modelSprings p' sp (y ++ x2) c w (Model.stableRows p') env = some A' := by
    unfold modelSprings
    rw [hI']
    exact hA'
  refine ⟨X, C, C', A, A', hC, hC', hX, hmA, hmA', fun i x hix hx1 hx2 b => ?_⟩
  have hl : ∀ l ∈ sp.geometry.layers, l.top ≤ sp.geometry.topElevation := by
    obtain ⟨C, -, hm⟩ := Weight.mesh_facts h
    exact fun l hl => (hm.lays l hl).2.2
  -- the rows of the elements of the old pile
  have hpair : ∃ r r', I.rows[i]? = some r ∧ I'.rows[i + X.length]? = some r' ∧ r.top = x.1 ∧ r'.top = r.top ∧ r'.bottom = r.bottom ∧
      r'.sigTop = r.sigTop ∧ r'.sigBottom = r.sigBottom ∧ r.sec = Model.elementSection (Model.stableRows p) r.top ∧
      r'.sec = Model.elementSection (Model.stableRows p') r.top ∧ I.distributedAxial = true ∧ I'.distributedAxial = true := by
    obtain ⟨C₃, e₃, hel, -⟩ := Props.Capacity.C56_model_shaft_partial h w _ hI hA g1 hfr
    rw [hC, Option.some.injEq] at e₃
    rw [← e₃] at hel
    have hS1 := hI
    have hS2 := hI'
    simp only [input, Option.bind_eq_bind, Option.bind_eq_some_iff, Option.pure_def, Option.some.injEq] at hS1 hS2
    obtain ⟨rs, a1, _, _, _, _, _, _, rfl⟩ := hS1
    obtain ⟨rs', a2, _, _, _, _, _, _, rfl⟩ := hS2
    have hrs : rs' = X.map (fun e => ⟨e, none, none, none⟩) ++ rs := by
      unfold Model.soilProperties at a1 a2
      rw [hC] at a1
      rw [hC'] at a2
      simp only at a1 a2
      rw [hX, rows_above sp.geometry X C.elements (fun e he => lt_of_le_of_lt h.below (hXt e he)) hl hne, a1, Option.map_some,
        Option.some.injEq] at a2
      exact a2.symm
    subst hrs
    have hri : ∃ r, rs[i]? = some r := by
      rw [hel, List.getElem?_map, List.getElem?_map] at hix
      cases hc : rs[i]? with
      | none => rw [hc] at hix; cases hix
      | some r => exact ⟨r, rfl⟩
    obtain ⟨r, hri⟩ := hri
    refine ⟨rowOf (Model.stableRows p) r, rowOf (Model.stableRows p') r, by rw [List.getElem?_map, hri]; rfl, ?_, ?_, rfl, rfl, rfl, rfl, rfl, rfl, hw, hw⟩
    · rw [List.getElem?_map, List.getElem?_append_right (by rw [List.length_map]; omega), List.length_map, Nat.add_sub_cancel, hri]
      rfl
    · rw [hel, List.getElem?_map, List.getElem?_map, hri] at hix
      cases hix
      rfl
  obtain ⟨r, r', hi1, hi2, q0, q1, q2, q3, q4, q5, q6, hax⟩ := hpair
  have hftop : f.top = top := by
    have := h.head
    unfold Pile.topElevation at this
    rw [hf] at this
    simpa using this
  have hxs : r.sec = some f := by
    rw [q5]
    have := stable_in (P := []) (g := f) (Q := L) (z := r.top) (valid_setup h) hf (by rw [q0]; exact hx1)
      (by rw [q0, hftop]; exact hx2.trans h.below)
    simpa using this
  have hxs' : r'.sec = some e := by
    rw [q6]
    have := stable_in (P := P ++ [e]) (g := f) (Q := L) (z := r.top) (valid_setup h') (by rw [hE, hf]) (by rw [q0]; exact hx1)
      (by rw [q0, hftop]; exact hx2.trans h.below)
    simpa using this
  have hsc := friction_scale (b := b) (by rw [hlay', hlay]) hax.1 hax.2 q1 q2 q3 q4 hxs hxs'
    (fun l hl => by rw [hlay] at hl; exact (hclay l hl).imp (fun m h3 => h3.1)) (hfr i r b hi1) (hfr' _ r' b hi2)
  obtain ⟨-, -, hro⟩ := hrows r (List.mem_of_getElem? hi1)
  obtain ⟨⟨l, hlo⟩, -⟩ := hro (by rw [q0]; exact hx2)
  have hlm : l ∈ sp.layers := by
    have : l ∈ Props.Assemble.owners I r := by rw [hlo]; exact List.mem_singleton.2 rfl
    rw [← hlay]
    exact (List.mem_filter.1 this).1
  obtain ⟨m, hm1, -, hm2⟩ := hclay l hlm
  have hfp := friction_pos hlo hm1 hm2 hax.1 (hfr i r b hi1)
  have hpos : 0 < f.diameter := by
    obtain ⟨sections, mat, hmk, hb⟩ := valid_setup h
    obtain ⟨-, hmem⟩ := mkPile_sections sections mat p hmk
    exact ((Pile.built_iff f).1 (hb f ((hmem f).1 (by rw [hf]; simp)))).2.1
  refine ⟨fc i b, hfp, (Props.Capacity.friction_ends hA g1 hi1 (hfr i r b hi1)).1, ?_⟩
  rw [(Props.Capacity.friction_ends hA' henv hi2 (hfr' _ r' b hi2)).1]
  congr 2
  rw [← mul_div_assoc, eq_div_iff hpos.ne', hsc]

end results

/-! ## Examples -/

section examples
open OpenPile.Kernel OpenPile.Winkler OpenPile.Spring OpenPile.Result OpenPile.Analysis OpenPile.SoilAnalysis OpenPile.BC OpenPile.Mesh

/-- A pile from 1 m above the ground to -10 m with a stub of 2 m and diameter `d` on top. -/
noncomputable def withStub (d : ℝ) : Pile ℝ := ⟨[⟨3, 1, d, 1 / 20⟩, ⟨1, -10, 2, 1 / 20⟩], Pile.steel⟩

theorem setup_stub (d : ℝ) (hd : 0 < d) (lat : Option SoilModel.Model) (ax : Option AxialModel) :
    Weight.Setup (withStub d) (SoilProfile.geometry ⟨0, -1, [⟨⟨0, -20, 18⟩, lat, ax⟩]⟩) ([2] ++ []) 1 3 (-10) where
  coarse := by norm_num
  tip_eq := rfl
  built := (Props.Assemble.setup_example lat ax).built
  exact := (Props.Assemble.setup_example lat ax).exact
  first := (Props.Assemble.setup_example lat ax).first
  last := (Props.Assemble.setup_example lat ax).last
  grid := by
    rintro r (⟨s, hs, h⟩ | ⟨sp', hsp, h⟩ | h)
    · simp only [withStub, List.mem_cons, List.not_mem_nil, or_false] at hs
      rcases hs with rfl | rfl <;> rcases h with rfl | rfl
      · exact ⟨30000, by norm_num⟩
      · exact ⟨10000, by norm_num⟩
      · exact ⟨10000, by norm_num⟩
      · exact ⟨-100000, by norm_num⟩
    · exact (Props.Assemble.setup_example lat ax).grid r (Or.inr (Or.inl ⟨sp', hsp, h⟩))
    · rw [List.append_nil, List.mem_singleton] at h
      exact ⟨20000, by rw [h]; norm_num⟩
  ground := by norm_num [SoilProfile.geometry]
  extra := by
    intro x hx
    rw [List.append_nil, List.mem_singleton] at hx
    rw [hx]; norm_num
  sections := by
    intro s hs
    simp only [withStub, List.mem_cons, List.not_mem_nil, or_false] at hs
    rcases hs with rfl | rfl <;> norm_num
  pile := by
    have hb : ∀ s ∈ (withStub d).sections, Spec.Pile.Built s := by
      intro s hs
      simp only [withStub, List.mem_cons, List.not_mem_nil, or_false] at hs
      rcases hs with rfl | rfl
      · exact (Pile.built_iff _).2 ⟨by norm_num, hd, by norm_num⟩
      · exact (Pile.built_iff _).2 (by norm_num)
    have hst : Spec.Pile.Stacked (withStub d).sections := by simp [withStub, Spec.Pile.Stacked]
    have := Pile.sort_of_stacked (withStub d).sections _ (List.Perm.refl _) (fun s hs => ((Pile.built_iff s).1 (hb s hs)).1) hst
    exact ⟨(withStub d).sections, Pile.steel, (Pile.mkPile_ok_iff _ _ _).2 ⟨by simp [withStub], by rw [this]; exact hst, by rw [this]; rfl⟩, hb⟩
  head := rfl
  below := by norm_num [SoilProfile.geometry]
  inside := by
    intro x hx
    rw [List.append_nil, List.mem_singleton] at hx
    rw [hx]; norm_num

/-- A stub of the same diameter: `C99_soil_stable` applies, for any soil models. -/
example (ty : ElementType) (lat : Option SoilModel.Model) (ax : Option AxialModel) (env : Draws) (bcs : List (Cond ℝ))
    (hb : ∀ b ∈ bcs, -10 ≤ b.elevation ∧ b.elevation < 1 / 2) :
    ∃ S, S ≠ [] ∧ SameResult S
      (solveSoil ty (withStub 2) ⟨0, -1, [⟨⟨0, -20, 18⟩, lat, ax⟩]⟩ ([2] ++ []) 1 ⟨true, true, true, true, true, true⟩ (Model.stableRows (withStub 2)) env bcs)
      (solveSoil ty ⟨[⟨1, -10, 2, 1 / 20⟩], Pile.steel⟩ ⟨0, -1, [⟨⟨0, -20, 18⟩, lat, ax⟩]⟩ [] 1 ⟨true, true, true, true, true, true⟩
        (Model.stableRows ⟨[⟨1, -10, 2, 1 / 20⟩], Pile.steel⟩) (from_ S.length env) bcs) := by
  obtain ⟨S, C, C', hC, hC', hS, hSt, -, hres⟩ := C99_soil_stable ty 78 210000000 (3 / 10) ⟨[⟨1, -10, 2, 1 / 20⟩], Pile.steel⟩ (withStub 2)
    [⟨3, 1, 2, 1 / 20⟩] rfl rfl Pile.C50_predefined.1 (fun _ => by norm_num)
    (by
      intro s hs
      simp only [withStub, List.mem_cons, List.not_mem_nil, or_false] at hs
      rcases hs with rfl | rfl <;> exact ⟨(Pile.built_iff _).2 (by norm_num), by norm_num⟩)
    ⟨0, -1, [⟨⟨0, -20, 18⟩, lat, ax⟩]⟩ [] [2] 1 1 3 (-10) (Props.Assemble.setup_example lat ax) (setup_stub 2 (by norm_num) lat ax)
    (by intro x hx; rw [List.mem_singleton] at hx; rw [hx]; norm_num)
    (by
      rintro f e hf he
      cases hf
      cases he
      exact Or.inl rfl)
    ⟨true, true, true, true, true, true⟩ (fun _ => rfl) env
  refine ⟨S, ?_, hres bcs ?_⟩
  · rintro rfl
    obtain ⟨D, e, hm⟩ := NoModels.meshOn_setup (Props.Assemble.setup_example lat ax)
    obtain ⟨D', e', hm'⟩ := NoModels.meshOn_setup (setup_stub 2 (by norm_num) lat ax)
    rw [hC, Option.some.injEq] at e
    rw [hC', Option.some.injEq] at e'
    have h1 := hm.first
    have h2 := hm'.first
    rw [← e', hS, List.nil_append, e, h1] at h2
    norm_num at h2
  · intro b hbm x hx
    have h1 := hSt x hx
    have h2 := hb b hbm
    rw [Bool.eq_false_iff]
    intro h3
    unfold BC.isClose at h3
    have h4 := of_decide_eq_true h3
    have h5 : |b.elevation| ≤ 10 := abs_le.2 ⟨by linarith, by linarith⟩
    have := (abs_le.1 h4).2
    linarith

/-- A stub of twice the diameter doubles the shaft friction of the pile below the ground: the hypotheses of the violation. -/
example : ∃ X C C' A A', getCoordinates ⟨[⟨1, -10, 2, 1 / 20⟩], Pile.steel⟩ (some (SoilProfile.geometry ⟨0, -1, [⟨⟨0, -20, 18⟩, none, some (.clay Props.Assemble.axialExample)⟩]⟩)) [] 1 = some C ∧
    getCoordinates (withStub 4) (some (SoilProfile.geometry ⟨0, -1, [⟨⟨0, -20, 18⟩, none, some (.clay Props.Assemble.axialExample)⟩]⟩)) ([2] ++ []) 1 = some C' ∧
    C'.elements = X ++ C.elements ∧
    modelSprings ⟨[⟨1, -10, 2, 1 / 20⟩], Pile.steel⟩ ⟨0, -1, [⟨⟨0, -20, 18⟩, none, some (.clay Props.Assemble.axialExample)⟩]⟩ [] 1
      ⟨true, true, true, true, true, true⟩ (Model.stableRows ⟨[⟨1, -10, 2, 1 / 20⟩], Pile.steel⟩) (from_ X.length Props.Assemble.drawsExample) = some A ∧
    modelSprings (withStub 4) ⟨0, -1, [⟨⟨0, -20, 18⟩, none, some (.clay Props.Assemble.axialExample)⟩]⟩ ([2] ++ []) 1
      ⟨true, true, true, true, true, true⟩ (Model.stableRows (withStub 4)) Props.Assemble.drawsExample = some A' ∧
    ∀ (i : ℕ) (x : ℝ × ℝ), C.elements[i]? = some x → -10 < x.1 → x.1 ≤ 0 → ∀ b, ∃ q, 0 < q ∧
      Extract.rowMin (Capacity.rows (A.tz i b)).r = some (-q) ∧
      Extract.rowMin (Capacity.rows (A'.tz (i + X.length) b)).r = some (-(q * (4 / 2))) := by
  refine C99_violated_friction ⟨[⟨1, -10, 2, 1 / 20⟩], Pile.steel⟩ (withStub 4) [] ⟨3, 1, 4, 1 / 20⟩ ⟨1, -10, 2, 1 / 20⟩ [] rfl rfl
    ⟨0, -1, [⟨⟨0, -20, 18⟩, none, some (.clay Props.Assemble.axialExample)⟩]⟩ [] [2] 1 1 3 (-10) (Props.Assemble.setup_example _ _)
    (setup_stub 4 (by norm_num) _ _) (by intro x hx; rw [List.mem_singleton] at hx; rw [hx]; norm_num)
    ⟨true, true, true, true, true, true⟩ rfl Props.Assemble.drawsExample Props.Capacity.good_draws.1 Props.Capacity.good_draws.2 Props.Capacity.good_lateral
    ?_ ?_
  · intro l hl
    rw [List.mem_singleton] at hl
    subst hl
    refine ⟨_, rfl, ⟨fun d _ _ => ⟨50, ?_, by norm_num⟩, ?_, ?_, ?_, ?_, ?_⟩, ?_⟩
    · norm_num [Props.Assemble.axialExample, Params.layered, Params.topBottom]
    all_goals norm_num [Props.Assemble.axialExample]
  · intro l hl m hm
    rw [List.mem_singleton] at hl
    subst hl
    cases hm

end examples

end OpenPile.Props.StubSoil

/-
C100: the switches of a Model act on their own springs only, and switching springs off is the same as leaving the soil
models out of the layers.
-/
import Verif.Props.NoModels
import Verif.Props.Creation

namespace OpenPile.Props.Switch
open OpenPile.Assemble OpenPile.Analysis OpenPile.SoilAnalysis OpenPile.Winkler OpenPile.Kernel OpenPile.Spring OpenPile.BC
open OpenPile.Props.NoModels OpenPile.Mesh

/-! ## Specification -/

/-- Every switch that is on in `v` is on in `w`. -/
structure Fewer (v w : Switches) : Prop where
  lateral : v.distributedLateral = true → w.distributedLateral = true
  moment : v.distributedMoment = true → w.distributedMoment = true
  axial : v.distributedAxial = true → w.distributedAxial = true
  shear : v.baseShear = true → w.baseShear = true
  base : v.baseMoment = true → w.baseMoment = true
  tip : v.baseAxial = true → w.baseAxial = true

/-- The springs of the kinds that are switched on; blank tables for the others. -/
def keep (w : Switches) (A : Arrays) : Arrays where
  py := if w.distributedLateral then A.py else fun _ _ => List.replicate 15 (0, 0)
  mt := if w.distributedMoment then A.mt else fun _ _ => List.replicate 15 (List.replicate 15 (0, 0))
  tz := if w.distributedAxial then A.tz else fun _ _ => List.replicate 15 (0, 0)
  hb := if w.baseShear then A.hb else List.replicate 15 (0, 0)
  mb := if w.baseMoment then A.mb else List.replicate 15 (0, 0)
  qz := if w.baseAxial then A.qz else List.replicate 15 (0, 0)

/-- The profile without lateral models. -/
def withoutLateral (sp : SoilProfile) : SoilProfile := { sp with layers := sp.layers.map (fun l => { l with lateral := none }) }

/-- The profile without axial models. -/
def withoutAxial (sp : SoilProfile) : SoilProfile := { sp with layers := sp.layers.map (fun l => { l with axial := none }) }

/-- All lateral springs off. -/
def lateralOff (w : Switches) : Switches :=
  { w with distributedLateral := false, distributedMoment := false, baseShear := false, baseMoment := false }

/-- All axial springs off. -/
def axialOff (w : Switches) : Switches := { w with distributedAxial := false, baseAxial := false }

/-! ## The loop -/

/-- The input of `create_springs` with other switches. -/
def switched (S : Input) (v : Switches) : Input :=
  { S with distributedLateral := v.distributedLateral, distributedMoment := v.distributedMoment, distributedAxial := v.distributedAxial,
           baseShear := v.baseShear, baseMoment := v.baseMoment, baseAxial := v.baseAxial }

/-- The switches of an input. -/
def switchesOf (S : Input) : Switches :=
  ⟨S.distributedLateral, S.distributedMoment, S.distributedAxial, S.baseShear, S.baseMoment, S.baseAxial⟩

section loop
variable {S : Input} {env : Draws} {v : Switches}

theorem py_keep (h : v.distributedLateral = true → S.distributedLateral = true) (l : SoilLayer) (m : SoilModel.Model) (r : Row) (i : ℕ) {A B : Arrays}
    (hA : pyStep S env l m r i A = some B) : pyStep (switched S v) env l m r i (keep v A) = some (keep v B) := by
  unfold pyStep at hA ⊢
  have hn : ∀ b e, pyNode (switched S v) l m r b e = pyNode S l m r b e := fun _ _ => rfl
  simp only [hn]
  rcases Bool.eq_false_or_eq_true v.distributedLateral with hv | hv
  swap
  · rw [if_neg (by simp [switched, hv])]
    split_ifs at hA
    · simp only [Option.bind_eq_bind, Option.bind_eq_some_iff, Option.pure_def, Option.some.injEq] at hA
      obtain ⟨t, -, b, -, rfl⟩ := hA
      simp [keep, hv]
    · rw [Option.some.inj hA]
  · have hs : (switched S v).distributedLateral = S.distributedLateral := by rw [h hv]; exact hv
    rw [hs]
    split_ifs at hA ⊢
    · simp only [Option.bind_eq_bind, Option.bind_eq_some_iff, Option.pure_def, Option.some.injEq] at hA
      obtain ⟨t, ht, b, hb, rfl⟩ := hA
      rw [ht, hb]
      simp [keep, hv]
    · rw [Option.some.inj hA]

theorem mt_keep (h : v.distributedMoment = true → S.distributedMoment = true) (l : SoilLayer) (m : SoilModel.Model) (r : Row) (i : ℕ) {A B : Arrays}
    (hA : mtStep S env l m r i A = some B) : mtStep (switched S v) env l m r i (keep v A) = some (keep v B) := by
  unfold mtStep at hA ⊢
  have hn : ∀ b e, mtNode (switched S v) l m r b e = mtNode S l m r b e := fun _ _ => rfl
  simp only [hn]
  rcases Bool.eq_false_or_eq_true v.distributedMoment with hv | hv
  swap
  · rw [if_neg (by simp [switched, hv])]
    split_ifs at hA
    · simp only [Option.bind_eq_bind, Option.bind_eq_some_iff, Option.pure_def, Option.some.injEq] at hA
      obtain ⟨t, -, b, -, rfl⟩ := hA
      simp [keep, hv]
    · rw [Option.some.inj hA]
  · have hs : (switched S v).distributedMoment = S.distributedMoment := by rw [h hv]; exact hv
    rw [hs]
    split_ifs at hA ⊢
    · simp only [Option.bind_eq_bind, Option.bind_eq_some_iff, Option.pure_def, Option.some.injEq] at hA
      obtain ⟨t, ht, b, hb, rfl⟩ := hA
      rw [ht, hb]
      simp [keep, hv]
    · rw [Option.some.inj hA]

theorem hb_keep (h : v.baseShear = true → S.baseShear = true) (l : SoilLayer) (m : SoilModel.Model) (r : Row) {A B : Arrays}
    (hA : hbStep S l m r A = some B) : hbStep (switched S v) l m r (keep v A) = some (keep v B) := by
  unfold hbStep at hA ⊢
  have hn : hbTip (switched S v) l m r = hbTip S l m r := rfl
  have ht : tipIn (switched S v) l = tipIn S l := rfl
  rw [hn, ht]
  rcases Bool.eq_false_or_eq_true v.baseShear with hv | hv
  swap
  · rw [if_neg (by simp [switched, hv])]
    split_ifs at hA
    · simp only [Option.bind_eq_bind, Option.bind_eq_some_iff, Option.pure_def, Option.some.injEq] at hA
      obtain ⟨t, -, rfl⟩ := hA
      simp [keep, hv]
    · rw [Option.some.inj hA]
  · have hs : (switched S v).baseShear = S.baseShear := by rw [h hv]; exact hv
    rw [hs]
    split_ifs at hA ⊢
    · simp only [Option.bind_eq_bind, Option.bind_eq_some_iff, Option.pure_def, Option.some.injEq] at hA
      obtain ⟨t, ht, rfl⟩ := hA
      rw [ht]
      simp [keep, hv]
    · rw [Option.some.inj hA]

theorem mb_keep (h : v.baseMoment = true → S.baseMoment = true) (l : SoilLayer) (m : SoilModel.Model) (r : Row) {A B : Arrays}
    (hA : mbStep S l m r A = some B) : mbStep (switched S v) l m r (keep v A) = some (keep v B) := by
  unfold mbStep at hA ⊢
  have hn : mbTip (switched S v) l m r = mbTip S l m r := rfl
  have ht : tipIn (switched S v) l = tipIn S l := rfl
  rw [hn, ht]
  rcases Bool.eq_false_or_eq_true v.baseMoment with hv | hv
  swap
  · rw [if_neg (by simp [switched, hv])]
    split_ifs at hA
    · simp only [Option.bind_eq_bind, Option.bind_eq_some_iff, Option.pure_def, Option.some.injEq] at hA
      obtain ⟨t, -, rfl⟩ := hA
      simp [keep, hv]
    · rw [Option.some.inj hA]
  · have hs : (switched S v).baseMoment = S.baseMoment := by rw [h hv]; exact hv
    rw [hs]
    split_ifs at hA ⊢
    · simp only [Option.bind_eq_bind, Option.bind_eq_some_iff, Option.pure_def, Option.some.injEq] at hA
      obtain ⟨t, ht, rfl⟩ := hA
      rw [ht]
      simp [keep, hv]
    · rw [Option.some.inj hA]

/-- t-z springs of the loop body. -/
noncomputable def tzPart (S : Input) (env : Draws) (l : SoilLayer) (m : AxialModel) (r : Row) (i : ℕ) (A : Arrays) : Option Arrays :=
  if S.distributedAxial = true then
    (tzNode S l m r false (env.tz l.top i false)).bind (fun t => (tzNode S l m r true (env.tz l.top i true)).bind (fun b =>
      some { A with tz := setBoth A.tz i t b }))
  else some A

/-- Q-z spring of the loop body. -/
noncomputable def qzPart (S : Input) (env : Draws) (l : SoilLayer) (m : AxialModel) (r : Row) (i : ℕ) (A : Arrays) : Option Arrays :=
  if (tipIn S l && S.baseAxial) = true then (qzTip S l m r (env.qz l.top i)).bind (fun q => some { A with qz := q }) else some A

theorem axial_split (S : Input) (env : Draws) (l : SoilLayer) (m : AxialModel) (hm : l.axial = some m) (r : Row) (i : ℕ) (A : Arrays) :
    axialStep S env l r i A = (tzPart S env l m r i A).bind (qzPart S env l m r i) := by
  unfold axialStep tzPart qzPart
  rw [hm]
  simp only [Option.bind_eq_bind, Option.pure_def]
  split_ifs
  · cases tzNode S l m r false (env.tz l.top i false) with
    | none => rfl
    | some t =>
      cases tzNode S l m r true (env.tz l.top i true) with
      | none => rfl
      | some b => rfl
  · cases tzNode S l m r false (env.tz l.top i false) with
    | none => rfl
    | some t =>
      cases tzNode S l m r true (env.tz l.top i true) with
      | none => rfl
      | some b => rfl
  · rfl
  · rfl

theorem axial_keep (h1 : v.distributedAxial = true → S.distributedAxial = true) (h2 : v.baseAxial = true → S.baseAxial = true) (l : SoilLayer) (r : Row)
    (i : ℕ) {A B : Arrays} (hA : axialStep S env l r i A = some B) : axialStep (switched S v) env l r i (keep v A) = some (keep v B) := by
  cases hm : l.axial with
  | none =>
    unfold axialStep at hA ⊢
    rw [hm] at hA ⊢
    cases hA
    rfl
  | some m =>
    rw [axial_split _ _ _ m hm] at hA ⊢
    rw [Option.bind_eq_some_iff] at hA ⊢
    obtain ⟨A1, hA1, hA2⟩ := hA
    refine ⟨keep v A1, ?_, ?_⟩
    · unfold tzPart at hA1 ⊢
      have hn : ∀ b e, tzNode (switched S v) l m r b e = tzNode S l m r b e := fun _ _ => rfl
      simp only [hn]
      rcases Bool.eq_false_or_eq_true v.distributedAxial with hv | hv
      swap
      · rw [if_neg (by simp [switched, hv])]
        split_ifs at hA1
        · simp only [Option.bind_eq_some_iff, Option.some.injEq] at hA1
          obtain ⟨t, -, b, -, rfl⟩ := hA1
          simp [keep, hv]
        · cases hA1
          rfl
      · rw [if_pos (h1 hv)] at hA1
        simp only [Option.bind_eq_some_iff, Option.some.injEq] at hA1
        obtain ⟨t, ht, b, hb, rfl⟩ := hA1
        rw [if_pos (show (switched S v).distributedAxial = true from hv), ht, hb]
        simp [keep, hv]
    · unfold qzPart at hA2 ⊢
      have hq : qzTip (switched S v) l m r (env.qz l.top i) = qzTip S l m r (env.qz l.top i) := rfl
      have ht : tipIn (switched S v) l = tipIn S l := rfl
      rw [hq, ht]
      rcases Bool.eq_false_or_eq_true v.baseAxial with hv | hv
      swap
      · rw [if_neg (by simp [switched, hv])]
        split_ifs at hA2
        · simp only [Option.bind_eq_some_iff, Option.some.injEq] at hA2
          obtain ⟨t, -, rfl⟩ := hA2
          simp [keep, hv]
        · cases hA2
          rfl
      · have hs : (switched S v).baseAxial = S.baseAxial := by rw [h2 hv]; exact hv
        rw [hs]
        split_ifs at hA2 ⊢
        · simp only [Option.bind_eq_some_iff, Option.some.injEq] at hA2
          obtain ⟨t, ht, rfl⟩ := hA2
          rw [ht]
          simp [keep, hv]
        · cases hA2
          rfl

theorem step_keep (h : Fewer v (switchesOf S)) (l : SoilLayer) (x : Row × ℕ) {A B : Arrays} (hA : Assemble.step S env l A x = some B) :
    Assemble.step (switched S v) env l (keep v A) x = some (keep v B) := by
  unfold Assemble.step at hA ⊢
  rw [Option.bind_eq_bind, Option.bind_eq_some_iff] at hA
  obtain ⟨A1, h1, h2⟩ := hA
  rw [axial_keep h.axial h.tip l x.1 x.2 h1, Option.bind_eq_bind, Option.bind_some]
  unfold lateralStep at h2 ⊢
  cases hm : l.lateral with
  | none =>
    rw [hm] at h2
    cases h2
    rfl
  | some m =>
    rw [hm] at h2
    simp only [Option.bind_eq_bind, Option.bind_eq_some_iff] at h2 ⊢
    obtain ⟨A2, h2, A3, h3, A4, h4, h5⟩ := h2
    exact ⟨_, py_keep h.lateral l m _ _ h2, _, mt_keep h.moment l m _ _ h3, _, hb_keep h.shear l m _ h4, mb_keep h.base l m _ h5⟩

theorem foldlM_keep {α : Type} (f g : Arrays → α → Option Arrays) (φ : Arrays → Arrays) (L : List α)
    (h : ∀ a ∈ L, ∀ A B, f A a = some B → g (φ A) a = some (φ B)) : ∀ A B, L.foldlM f A = some B → L.foldlM g (φ A) = some (φ B) := by
  induction L with
  | nil =>
    intro A B hA
    cases hA
    rfl
  | cons a L ih =>
    intro A B hA
    rw [List.foldlM_cons, Option.bind_eq_bind, Option.bind_eq_some_iff] at hA
    obtain ⟨A1, h1, h2⟩ := hA
    rw [List.foldlM_cons, h a (by simp) A A1 h1]
    exact ih (fun a ha => h a (List.mem_cons_of_mem _ ha)) A1 B h2

theorem create_keep (h : Fewer v (switchesOf S)) {A : Arrays} (hA : createSprings S env = some A) :
    createSprings (switched S v) env = some (keep v A) := by
  unfold createSprings at hA ⊢
  simp only [Option.bind_eq_bind, Option.bind_eq_some_iff, Option.pure_def, Option.some.injEq] at hA
  obtain ⟨B, hB, rfl⟩ := hA
  have h0 : keep v Arrays.zero = Arrays.zero := by simp [keep, Arrays.zero, zeros]
  have : fillArrays (switched S v) env = some (keep v B) := by
    unfold fillArrays at hB ⊢
    have := foldlM_keep _ (fun A l => (selected S l).foldlM (Assemble.step (switched S v) env l) A) (keep v) S.layers
      (fun l _ A B hA => foldlM_keep _ _ (keep v) _ (fun x _ A B hA => step_keep h l x hA) A B hA) _ _ hB
    rw [h0] at this
    exact this
  rw [this]
  have hz := negate_zeros
  unfold zeros at hz
  simp only [Option.bind_eq_bind, Option.bind_some, Option.pure_def, Option.some.injEq, keep, Arrays.mk.injEq, true_and]
  constructor
  · split_ifs
    · rfl
    · funext i b
      exact hz
  · split_ifs
    · rfl
    · exact hz

end loop

/-! ## Models -/

theorem input_switch (p : Pile.Pile ℝ) (sp : SoilProfile) (x2mesh : List ℝ) (c : ℝ) (v w : Switches) (table : List (ℝ × Pile.Section ℝ)) :
    input p sp x2mesh c v table = (input p sp x2mesh c w table).map (fun S => switched S v) := by
  unfold input
  cases (Model.soilProperties p sp.geometry x2mesh c).toOption with
  | none => rfl
  | some rows =>
    cases p.bottomElevation with
    | none => rfl
    | some t =>
      cases p.tipArea Real.pi with
      | none => rfl
      | some a =>
        cases p.tipFootprint Real.pi with
        | none => rfl
        | some f => rfl

/-- **C100, the springs.** Creating the Model with fewer switches on gives the same springs of the kinds that are still on, and
blank tables for the others; creation does not fail for it. -/
theorem C100_springs (p : Pile.Pile ℝ) (sp : SoilProfile) (x2mesh : List ℝ) (c : ℝ) (v w : Switches) (h : Fewer v w)
    (table : List (ℝ × Pile.Section ℝ)) (env : Draws) (A : Arrays) (hA : modelSprings p sp x2mesh c w table env = some A) :
    modelSprings p sp x2mesh c v table env = some (keep v A) := by
  unfold modelSprings at hA ⊢
  rw [Option.bind_eq_bind, Option.bind_eq_some_iff] at hA
  obtain ⟨S, hS, hA⟩ := hA
  rw [input_switch p sp x2mesh c v w, hS, Option.map_some, Option.bind_eq_bind, Option.bind_some]
  refine create_keep ?_ hA
  unfold input at hS
  simp only [Option.bind_eq_bind, Option.bind_eq_some_iff, Option.pure_def, Option.some.injEq] at hS
  obtain ⟨rows, -, t, -, a, -, f, -, rfl⟩ := hS
  exact h

/-- **C100, one kind.** Two Models that differ in their switches only have the same springs of every kind whose switch is the
same in both. -/
theorem C100_kind (p : Pile.Pile ℝ) (sp : SoilProfile) (x2mesh : List ℝ) (c : ℝ) (v w : Switches)
    (table : List (ℝ × Pile.Section ℝ)) (env : Draws) (A B : Arrays) (hA : modelSprings p sp x2mesh c v table env = some A)
    (hB : modelSprings p sp x2mesh c w table env = some B) :
    (v.distributedLateral = w.distributedLateral → A.py = B.py) ∧ (v.distributedMoment = w.distributedMoment → A.mt = B.mt) ∧
    (v.distributedAxial = w.distributedAxial → A.tz = B.tz) ∧ (v.baseShear = w.baseShear → A.hb = B.hb) ∧
    (v.baseMoment = w.baseMoment → A.mb = B.mb) ∧ (v.baseAxial = w.baseAxial → A.qz = B.qz) := by
  have hA' := C100_springs p sp x2mesh c v v ⟨id, id, id, id, id, id⟩ table env A hA
  have hB' := C100_springs p sp x2mesh c w w ⟨id, id, id, id, id, id⟩ table env B hB
  set m : Switches := ⟨v.distributedLateral && w.distributedLateral, v.distributedMoment && w.distributedMoment,
    v.distributedAxial && w.distributedAxial, v.baseShear && w.baseShear, v.baseMoment && w.baseMoment, v.baseAxial && w.baseAxial⟩ with hm
  have hA2 := C100_springs p sp x2mesh c m v (by constructor <;> simp [hm] <;> tauto) table env A hA
  have hB2 := C100_springs p sp x2mesh c m w (by constructor <;> simp [hm]) table env B hB
  rw [hA, Option.some.injEq] at hA'
  rw [hB, Option.some.injEq] at hB'
  rw [hA2, Option.some.injEq] at hB2
  have a1 := congrArg Arrays.py hA'
  have a2 := congrArg Arrays.mt hA'
  have a3 := congrArg Arrays.tz hA'
  have a4 := congrArg Arrays.hb hA'
  have a5 := congrArg Arrays.mb hA'
  have a6 := congrArg Arrays.qz hA'
  have b1 := congrArg Arrays.py hB'
  have b2 := congrArg Arrays.mt hB'
  have b3 := congrArg Arrays.tz hB'
  have b4 := congrArg Arrays.hb hB'
  have b5 := congrArg Arrays.mb hB'
  have b6 := congrArg Arrays.qz hB'
  have c1 := congrArg Arrays.py hB2
  have c2 := congrArg Arrays.mt hB2
  have c3 := congrArg Arrays.tz hB2
  have c4 := congrArg Arrays.hb hB2
  have c5 := congrArg Arrays.mb hB2
  have c6 := congrArg Arrays.qz hB2
  simp only [keep, hm] at a1 a2 a3 a4 a5 a6 b1 b2 b3 b4 b5 b6 c1 c2 c3 c4 c5 c6
  refine ⟨fun e => ?_, fun e => ?_, fun e => ?_, fun e => ?_, fun e => ?_, fun e => ?_⟩
  · rw [e, Bool.and_self] at c1
    rw [e] at a1
    split_ifs at a1 b1 c1
    · exact c1
    · rw [a1, b1]
  · rw [e, Bool.and_self] at c2
    rw [e] at a2
    split_ifs at a2 b2 c2
    · exact c2
    · rw [a2, b2]
  · rw [e, Bool.and_self] at c3
    rw [e] at a3
    split_ifs at a3 b3 c3
    · exact c3
    · rw [a3, b3]
  · rw [e, Bool.and_self] at c4
    rw [e] at a4
    split_ifs at a4 b4 c4
    · exact c4
    · rw [a4, b4]
  · rw [e, Bool.and_self] at c5
    rw [e] at a5
    split_ifs at a5 b5 c5
    · exact c5
    · rw [a5, b5]
  · rw [e, Bool.and_self] at c6
    rw [e] at a6
    split_ifs at a6 b6 c6
    · exact c6
    · rw [a6, b6]

/-! ## Leaving the soil models out -/

/-- Springs of layers without lateral models. -/
theorem create_lateral (S : Input) (env : Draws) (w : Switches) :
    createSprings { switched S w with layers := S.layers.map (fun l => { l with lateral := none }) } env =
      createSprings (switched S (lateralOff w)) env := by
  have hstep : ∀ (l : SoilLayer) (A : Arrays) (x : Row × ℕ),
      Assemble.step { switched S w with layers := S.layers.map (fun l => { l with lateral := none }) } env { l with lateral := none } A x =
        Assemble.step (switched S (lateralOff w)) env l A x := by
    intro l A x
    unfold Assemble.step
    have h1 : ∀ A, lateralStep { switched S w with layers := S.layers.map (fun l => { l with lateral := none }) } env { l with lateral := none } x.1 x.2 A = some A :=
      fun A => rfl
    have h2 : ∀ A, lateralStep (switched S (lateralOff w)) env l x.1 x.2 A = some A := by
      intro A
      unfold lateralStep
      cases l.lateral with
      | none => rfl
      | some m =>
        have e1 : ∀ A, pyStep (switched S (lateralOff w)) env l m x.1 x.2 A = some A := fun A => by
          unfold pyStep; rw [if_neg (by simp [switched, lateralOff])]
        have e2 : ∀ A, mtStep (switched S (lateralOff w)) env l m x.1 x.2 A = some A := fun A => by
          unfold mtStep; rw [if_neg (by simp [switched, lateralOff])]
        have e3 : ∀ A, hbStep (switched S (lateralOff w)) l m x.1 A = some A := fun A => by
          unfold hbStep; rw [if_neg (by simp [switched, lateralOff])]
        have e4 : ∀ A, mbStep (switched S (lateralOff w)) l m x.1 A = some A := fun A => by
          unfold mbStep; rw [if_neg (by simp [switched, lateralOff])]
        simp only [e1, e2, e3, e4, Option.bind_eq_bind, Option.bind_some]
    simp only [h1, h2]
    rfl
  have hfill : fillArrays { switched S w with layers := S.layers.map (fun l => { l with lateral := none }) } env =
      fillArrays (switched S (lateralOff w)) env := by
    unfold fillArrays
    simp only [List.foldlM_map]
    have : (switched S (lateralOff w)).layers = S.layers := rfl
    rw [this]
    congr 1
    funext A l
    have : selected { switched S w with layers := S.layers.map (fun l => { l with lateral := none }) } { l with lateral := none } =
        selected (switched S (lateralOff w)) l := rfl
    rw [this]
    congr 1
    funext A x
    exact hstep l A x
  unfold createSprings
  rw [hfill]

/-- Springs of layers without axial models. -/
theorem create_axial (S : Input) (env : Draws) (w : Switches) :
    createSprings { switched S w with layers := S.layers.map (fun l => { l with axial := none }) } env =
      createSprings (switched S (axialOff w)) env := by
  have hstep : ∀ (l : SoilLayer) (A : Arrays) (x : Row × ℕ),
      Assemble.step { switched S w with layers := S.layers.map (fun l => { l with axial := none }) } env { l with axial := none } A x =
        Assemble.step (switched S (axialOff w)) env l A x := by
    intro l A x
    unfold Assemble.step
    have h1 : ∀ A, axialStep { switched S w with layers := S.layers.map (fun l => { l with axial := none }) } env { l with axial := none } x.1 x.2 A = some A :=
      fun A => rfl
    have h2 : ∀ A, axialStep (switched S (axialOff w)) env l x.1 x.2 A = some A := by
      intro A
      cases hm : l.axial with
      | none =>
        unfold axialStep
        rw [hm]
      | some m =>
        rw [axial_split _ _ _ m hm]
        unfold tzPart qzPart
        rw [if_neg (by simp [switched, axialOff]), Option.bind_some, if_neg (by simp [switched, axialOff])]
    simp only [h1, h2]
    rfl
  have hfill : fillArrays { switched S w with layers := S.layers.map (fun l => { l with axial := none }) } env =
      fillArrays (switched S (axialOff w)) env := by
    unfold fillArrays
    simp only [List.foldlM_map]
    have : (switched S (axialOff w)).layers = S.layers := rfl
    rw [this]
    congr 1
    funext A l
    have : selected { switched S w with layers := S.layers.map (fun l => { l with axial := none }) } { l with axial := none } =
        selected (switched S (axialOff w)) l := rfl
    rw [this]
    congr 1
    funext A x
    exact hstep l A x
  unfold createSprings
  rw [hfill]

theorem geometry_lateral (sp : SoilProfile) : (withoutLateral sp).geometry = sp.geometry := by
  simp [SoilProfile.geometry, withoutLateral, Function.comp_def]

theorem geometry_axial (sp : SoilProfile) : (withoutAxial sp).geometry = sp.geometry := by
  simp [SoilProfile.geometry, withoutAxial, Function.comp_def]

/-- **C100, leaving models out, springs.** -/
theorem C100_left_out_springs (p : Pile.Pile ℝ) (sp : SoilProfile) (x2mesh : List ℝ) (c : ℝ) (w : Switches)
    (table : List (ℝ × Pile.Section ℝ)) (env : Draws) :
    modelSprings p (withoutLateral sp) x2mesh c w table env = modelSprings p sp x2mesh c (lateralOff w) table env ∧
    modelSprings p (withoutAxial sp) x2mesh c w table env = modelSprings p sp x2mesh c (axialOff w) table env := by
  constructor
  · unfold modelSprings
    rw [input_switch p sp x2mesh c (lateralOff w) w]
    have : input p (withoutLateral sp) x2mesh c w table =
        (input p sp x2mesh c w table).map (fun S => { switched S w with layers := S.layers.map (fun l => { l with lateral := none }) }) := by
      unfold input
      rw [geometry_lateral]
      cases (Model.soilProperties p sp.geometry x2mesh c).toOption with
      | none => rfl
      | some rows =>
        cases p.bottomElevation with
        | none => rfl
        | some t =>
          cases p.tipArea Real.pi with
          | none => rfl
          | some a =>
            cases p.tipFootprint Real.pi with
            | none => rfl
            | some f => rfl
    rw [this]
    cases input p sp x2mesh c w table with
    | none => rfl
    | some S => exact create_lateral S env w
  · unfold modelSprings
    rw [input_switch p sp x2mesh c (axialOff w) w]
    have : input p (withoutAxial sp) x2mesh c w table =
        (input p sp x2mesh c w table).map (fun S => { switched S w with layers := S.layers.map (fun l => { l with axial := none }) }) := by
      unfold input
      rw [geometry_axial]
      cases (Model.soilProperties p sp.geometry x2mesh c).toOption with
      | none => rfl
      | some rows =>
        cases p.bottomElevation with
        | none => rfl
        | some t =>
          cases p.tipArea Real.pi with
          | none => rfl
          | some a =>
            cases p.tipFootprint Real.pi with
            | none => rfl
            | some f => rfl
    rw [this]
    cases input p sp x2mesh c w table with
    | none => rfl
    | some S => exact create_axial S env w

/-! ## The analysis -/

/-- A switch that differs goes with blank tables. -/
structure Blank (v w : Switches) (A : Arrays) : Prop where
  lateral : v.distributedLateral ≠ w.distributedLateral → A.py = fun _ _ => zeros
  moment : v.distributedMoment ≠ w.distributedMoment → A.mt = (fun _ _ => List.replicate 15 zeros) ∧
    ∀ i b, A.py i b ≠ [] ∧ ∀ u, (pyStiffness (A.py i b) .secant u).isSome
  axial : v.distributedAxial ≠ w.distributedAxial → A.tz = fun _ _ => zeros
  shear : v.baseShear ≠ w.baseShear → A.hb = zeros
  base : v.baseMoment ≠ w.baseMoment → A.mb = zeros
  tip : v.baseAxial ≠ w.baseAxial → A.qz = zeros

theorem mt_blank (c : Curve) (hc : c ≠ []) (q u : ℝ) (kind : Kind) :
    mtStiffness ((c.map (·.2)).zip (List.replicate 15 zeros)) 15 q kind u = some 0 := by
  cases c with
  | nil => exact absurd rfl hc
  | cons a c =>
    unfold mtStiffness
    simp [List.replicate_succ, zeros]

theorem build_blank (ty : ElementType) {n : ℕ} (el : Fin n → Elem ℝ) (v w : Switches) (A : Arrays) (h : Blank v w A)
    (hv : v.distributedMoment = true → v.distributedLateral = true) (hw : w.distributedMoment = true → w.distributedLateral = true)
    (kind : Kind) (u : Fin (3 * n + 3) → ℝ) :
    buildStiffness ty el (springsOf v A n) kind u = buildStiffness ty el (springsOf w A n) kind u := by
  obtain ⟨z1, z2, z3, z4⟩ := zeros_sums
  have hdisp : ∀ (e : Fin n) (s : Fin 3) (b : Bool), ∃ x, springDisp u s e b = some x := fun e s b => ⟨_, SoilStiffness.springDisp_seen u s e b⟩
  have ppy : ∀ e b, pyAt (springsOf v A n) kind u e b = pyAt (springsOf w A n) kind u e b := by
    intro e b
    obtain ⟨x, hx⟩ := hdisp e 1 b
    unfold pyAt
    rw [hx]
    by_cases he : v.distributedLateral = w.distributedLateral
    · simp only [springsOf, he]
      rfl
    · have h0 : pyStiffness (A.py e.1 b) kind x = some 0 := by
        rw [h.lateral he]; unfold pyStiffness; rw [if_pos z1]
      simp only [springsOf, Option.bind_eq_bind, Option.bind_some, h0, Option.pure_def, ite_self]
  have ptz : ∀ e b, tzAt (springsOf v A n) kind u e b = tzAt (springsOf w A n) kind u e b := by
    intro e b
    obtain ⟨x, hx⟩ := hdisp e 0 b
    unfold tzAt
    rw [hx]
    by_cases he : v.distributedAxial = w.distributedAxial
    · simp only [springsOf, he]
      rfl
    · have h0 : tzStiffness (A.tz e.1 b) kind x = some 0 := by
        rw [h.axial he]; unfold tzStiffness; rw [if_pos z3]
      simp only [springsOf, Option.bind_eq_bind, Option.bind_some, h0, Option.pure_def, ite_self]
  have pmt : ∀ e b, mtAt (springsOf v A n) kind u e b = mtAt (springsOf w A n) kind u e b := by
    intro e b
    obtain ⟨x, hx⟩ := hdisp e 1 b
    obtain ⟨y, hy⟩ := hdisp e 2 b
    by_cases he : v.distributedMoment = w.distributedMoment
    · by_cases hm : w.distributedMoment = true
      · unfold mtAt
        simp only [springsOf, he, hm, hw hm, hv (he.trans hm)]
      · unfold mtAt
        simp only [springsOf, he, hm]
        rfl
    · obtain ⟨h1, h2⟩ := h.moment he
      obtain ⟨k, hk⟩ := Option.isSome_iff_exists.1 ((h2 e.1 b).2 x)
      have key : ∀ s : Switches, (s.distributedMoment = true → s.distributedLateral = true) → mtAt (springsOf s A n) kind u e b = some 0 := by
        intro s hs
        unfold mtAt
        rw [hx, hy]
        simp only [springsOf, Option.bind_eq_bind, Option.bind_some, hk, h1]
        by_cases hm : s.distributedMoment = true
        · rw [if_pos hm, if_pos (hs hm)]
          exact mt_blank _ (h2 e.1 b).1 _ _ _
        · rw [if_neg hm]
          rfl
      rw [key v hv, key w hw]
  have hs : soilAt (springsOf v A n) kind u = soilAt (springsOf w A n) kind u := by
    funext e
    unfold soilAt
    rw [ppy, ppy, ptz, ptz, pmt, pmt]
  have hb0 : ∀ x, baseStiffness zeros kind x = some 0 := fun x => by unfold baseStiffness; rw [if_pos z2]
  have hq0 : ∀ x, baseAxialStiffness zeros kind x = some 0 := fun x => by unfold baseAxialStiffness; rw [if_pos z4]
  have b1 : ∀ x, (if v.baseShear then baseStiffness A.hb kind x else some 0) = if w.baseShear then baseStiffness A.hb kind x else some 0 := by
    intro x
    by_cases he : v.baseShear = w.baseShear
    · rw [he]
    · rw [h.shear he, hb0, ite_self, ite_self]
  have b2 : ∀ x, (if v.baseMoment then baseStiffness A.mb kind x else some 0) = if w.baseMoment then baseStiffness A.mb kind x else some 0 := by
    intro x
    by_cases he : v.baseMoment = w.baseMoment
    · rw [he]
    · rw [h.base he, hb0, ite_self, ite_self]
  have b3 : ∀ x, (if v.baseAxial then baseAxialStiffness A.qz kind x else some 0) = if w.baseAxial then baseAxialStiffness A.qz kind x else some 0 := by
    intro x
    by_cases he : v.baseAxial = w.baseAxial
    · rw [he]
    · rw [h.tip he, hq0, ite_self, ite_self]
  have split : ∀ sp : Springs ℝ n, buildStiffness ty el sp kind u = (allSome (soilAt sp kind u)).bind (fun s =>
      (if sp.baseShear then baseStiffness sp.hb kind (u ⟨3 * n + 1, by omega⟩) else some 0).bind (fun h =>
      (if sp.baseMoment then baseStiffness sp.mb kind (u ⟨3 * n + 2, by omega⟩) else some 0).bind (fun m =>
      (if sp.baseAxial then baseAxialStiffness sp.qz kind (u ⟨3 * n, by omega⟩) else some 0).bind (fun q =>
      some (soilStiffness ty n el s h m q))))) := by
    intro sp
    unfold buildStiffness
    simp only [Option.bind_eq_bind, Option.pure_def]
    cases allSome (soilAt sp kind u) with
    | none => rfl
    | some s => split_ifs <;> rfl
  rw [split, split, hs]
  have c1 : (if (springsOf v A n).baseShear then baseStiffness (springsOf v A n).hb kind (u ⟨3 * n + 1, by omega⟩) else some 0) =
    if (springsOf w A n).baseShear then baseStiffness (springsOf w A n).hb kind (u ⟨3 * n + 1, by omega⟩) else some 0 := b1 _
  have c2 : (if (springsOf v A n).baseMoment then baseStiffness (springsOf v A n).mb kind (u ⟨3 * n + 2, by omega⟩) else some 0) =
    if (springsOf w A n).baseMoment then baseStiffness (springsOf w A n).mb kind (u ⟨3 * n + 2, by omega⟩) else some 0 := b2 _
  have c3 : (if (springsOf v A n).baseAxial then baseAxialStiffness (springsOf v A n).qz kind (u ⟨3 * n, by omega⟩) else some 0) =
    if (springsOf w A n).baseAxial then baseAxialStiffness (springsOf w A n).qz kind (u ⟨3 * n, by omega⟩) else some 0 := b3 _
  rw [c1, c2, c3]

/-- **C100, the analysis.** A switch that is turned off acts like blank tables of its springs: the analyses end in the same
way with the same tables, mobilisation and details. -/
theorem C100_analysis (ty : ElementType) (p : Pile.Pile ℝ) (C : Coordinates ℝ) (v w : Switches) (A : Arrays) (h : Blank v w A)
    (hv : v.distributedMoment = true → v.distributedLateral = true) (hw : w.distributedMoment = true → w.distributedLateral = true)
    (bcs : List (Cond ℝ)) (m : ℕ) : solveSoilOn ty p C v A bcs m = solveSoilOn ty p C w A bcs m := by
  unfold solveSoilOn
  have hb : ∀ el : Fin C.elements.length → Elem ℝ, buildStiffness ty el (springsOf v A C.elements.length) =
      buildStiffness ty el (springsOf w A C.elements.length) := fun el => by
    funext kind u
    exact build_blank ty el v w A h hv hw kind u
  have hr : ∀ (el : Fin C.elements.length → Elem ℝ) (d Q : Fin (3 * C.elements.length + 3) → ℝ) (it : ℕ) (a b : ℝ),
      results ty C.nodes el (springsOf v A C.elements.length) d Q it a b =
        results ty C.nodes el (springsOf w A C.elements.length) d Q it a b := fun el d Q it a b => rfl
  simp only [hb, hr]

/-- **C100, leaving models out.** Switching all lateral springs off gives the analysis of the profile without lateral models;
switching all axial springs off that of the profile without axial models. -/
theorem C100_left_out (ty : ElementType) (p : Pile.Pile ℝ) (sp : SoilProfile) (x2mesh : List ℝ) (c : ℝ) (w : Switches)
    (hw : w.distributedMoment = true → w.distributedLateral = true) (table : List (ℝ × Pile.Section ℝ)) (env : Draws) (bcs : List (Cond ℝ)) :
    solveSoil ty p sp x2mesh c (lateralOff w) table env bcs = solveSoil ty p (withoutLateral sp) x2mesh c w table env bcs ∧
    solveSoil ty p sp x2mesh c (axialOff w) table env bcs = solveSoil ty p (withoutAxial sp) x2mesh c w table env bcs := by
  obtain ⟨z1, -⟩ := zeros_sums
  constructor
  · unfold solveSoil
    rw [geometry_lateral, (C100_left_out_springs p sp x2mesh c w table env).1]
    cases getCoordinates p (some sp.geometry) x2mesh c with
    | none => simp only [Option.bind_eq_bind, Option.bind_none]
    | some C =>
      cases hA : modelSprings p sp x2mesh c (lateralOff w) table env with
      | none => simp only [Option.bind_eq_bind, Option.bind_none, Option.bind_some]
      | some A =>
        simp only [Option.bind_eq_bind, Option.bind_some]
        have hk := C100_springs p sp x2mesh c _ _ ⟨id, id, id, id, id, id⟩ table env A hA
        rw [hA, Option.some.injEq] at hk
        have hpy : A.py = fun _ _ => zeros := by rw [hk]; simp [keep, lateralOff, zeros]
        refine C100_analysis ty p C (lateralOff w) w A ⟨fun _ => hpy, fun _ => ⟨?_, fun i b => ?_⟩, fun he => absurd rfl he, fun _ => ?_,
          fun _ => ?_, fun he => absurd rfl he⟩ (fun he => by cases he) hw bcs 100
        · rw [hk]; simp [keep, lateralOff, zeros]
        · rw [hpy]
          refine ⟨by simp [zeros], fun u => ?_⟩
          unfold pyStiffness
          rw [if_pos z1]
          rfl
        · rw [hk]; simp [keep, lateralOff, zeros]
        · rw [hk]; simp [keep, lateralOff, zeros]
  · unfold solveSoil
    rw [geometry_axial, (C100_left_out_springs p sp x2mesh c w table env).2]
    cases getCoordinates p (some sp.geometry) x2mesh c with
    | none => simp only [Option.bind_eq_bind, Option.bind_none]
    | some C =>
      cases hA : modelSprings p sp x2mesh c (axialOff w) table env with
      | none => simp only [Option.bind_eq_bind, Option.bind_none, Option.bind_some]
      | some A =>
        simp only [Option.bind_eq_bind, Option.bind_some]
        have hk := C100_springs p sp x2mesh c _ _ ⟨id, id, id, id, id, id⟩ table env A hA
        rw [hA, Option.some.injEq] at hk
        refine C100_analysis ty p C (axialOff w) w A ⟨fun he => absurd rfl he, fun he => absurd rfl he, fun _ => ?_, fun he => absurd rfl he,
          fun he => absurd rfl he, fun _ => ?_⟩ hw hw bcs 100
        · rw [hk]; simp [keep, axialOff, zeros]
        · rw [hk]; simp [keep, axialOff, zeros]

/-- **C100, rotational springs need lateral ones.** A Model with rotational springs along the shaft but without lateral springs
can be created, but its analysis always raises. -/
theorem C100_moment_alone (ty : ElementType) {p : Pile.Pile ℝ} {sp : SoilProfile} {x2mesh : List ℝ} {c top tip : ℝ}
    (h : Weight.Setup p sp.geometry x2mesh c top tip) (w : Switches) (hm : w.distributedMoment = true) (hl : w.distributedLateral = false)
    (table : List (ℝ × Pile.Section ℝ)) (env : Draws) (bcs : List (Cond ℝ)) : solveSoil ty p sp x2mesh c w table env bcs = none := by
  obtain ⟨C, hC, hmo⟩ := meshOn_setup h
  obtain ⟨C', hC', hmf⟩ := Weight.mesh_facts h
  rw [hC, Option.some.injEq] at hC'
  subst hC'
  have hn : 0 < C.elements.length := by
    obtain ⟨z, -, hz, -, h0, h1, -⟩ := Analysis.mesh_fn hmo
    by_contra hc
    have hc : C.elements.length = 0 := by omega
    have h2 : top = tip := by
      rw [← h0, ← h1]
      congr 1
      ext
      simp [hc]
    obtain ⟨f, hf, -⟩ : ∃ f, p.sections.head? = some f ∧ f.top = top := by
      have := h.head
      unfold Pile.Pile.topElevation at this
      simpa using this
    have h3 := hmf.secs f (List.mem_of_mem_head? hf)
    linarith [h3.1, h3.2.1, h3.2.2]
  unfold solveSoil
  rw [hC]
  cases hA : modelSprings p sp x2mesh c w table env with
  | none => simp only [Option.bind_eq_bind, Option.bind_none, Option.bind_some]
  | some A =>
    simp only [Option.bind_eq_bind, Option.bind_some]
    unfold solveSoilOn
    have hb : ∀ el : Fin C.elements.length → Elem ℝ, ∀ F U R, winkler (buildStiffness ty el (springsOf w A C.elements.length)) F U R 100 = .raised := by
      intro el F U R
      unfold winkler
      rw [SoilStiffness.C53_moment_needs_lateral ty hn el (springsOf w A C.elements.length) .initial 0 hm hl]
    simp only [hb, Option.bind_eq_bind, Option.bind_eq_none_iff]
    intros
    trivial

/-! ## Examples -/

/-- A tube in clay with lateral and axial models, all springs on: the Model exists, and without its lateral springs it has the
same axial ones. -/
example : ∃ A, modelSprings Creation.tube (Creation.soil (.matlock (Creation.clay true))) [] 1 ⟨true, true, true, true, true, true⟩
      (Model.stableRows Creation.tube) Props.Assemble.drawsExample = some A ∧
    modelSprings Creation.tube (Creation.soil (.matlock (Creation.clay true))) [] 1 ⟨false, false, true, false, false, true⟩
      (Model.stableRows Creation.tube) Props.Assemble.drawsExample = some { Arrays.zero with tz := A.tz, qz := A.qz } := by
  obtain ⟨C, S, water, fc, ft, A, -, hS, -, -, -, -, -, -, -, -, hA⟩ := Creation.created (Creation.sound_clay true) ⟨true, true, true, true, true, true⟩
  have hm : modelSprings Creation.tube (Creation.soil (.matlock (Creation.clay true))) [] 1 ⟨true, true, true, true, true, true⟩
      (Model.stableRows Creation.tube) Props.Assemble.drawsExample = some A := by rw [modelSprings, hS]; exact hA
  refine ⟨A, hm, ?_⟩
  rw [C100_springs _ _ _ _ ⟨false, false, true, false, false, true⟩ _
    ⟨fun _ => rfl, fun _ => rfl, fun _ => rfl, fun _ => rfl, fun _ => rfl, fun _ => rfl⟩ _ _ A hm]
  simp [keep, Arrays.zero, zeros]

/-- The analyses of that tube with its lateral springs off, and without the clay model. -/
example (ty : ElementType) (bcs : List (Cond ℝ)) :
    solveSoil ty Creation.tube (Creation.soil (.matlock (Creation.clay true))) [] 1 ⟨false, false, true, false, false, true⟩
        (Model.stableRows Creation.tube) Props.Assemble.drawsExample bcs =
      solveSoil ty Creation.tube ⟨0, -1, [⟨⟨0, -20, 18⟩, none, some (.clay Props.Assemble.axialExample)⟩]⟩ [] 1 ⟨true, true, true, true, true, true⟩
        (Model.stableRows Creation.tube) Props.Assemble.drawsExample bcs :=
  (C100_left_out ty Creation.tube (Creation.soil (.matlock (Creation.clay true))) [] 1 ⟨true, true, true, true, true, true⟩ (fun _ => rfl)
    (Model.stableRows Creation.tube) Props.Assemble.drawsExample bcs).1

example (ty : ElementType) (bcs : List (Cond ℝ)) :
    solveSoil ty Creation.tube (Creation.soil (.matlock (Creation.clay true))) [] 1 ⟨false, true, true, true, true, true⟩
      (Model.stableRows Creation.tube) Props.Assemble.drawsExample bcs = none :=
  C100_moment_alone ty (Props.Assemble.setup_example _ _) _ rfl rfl _ _ bcs

end OpenPile.Props.Switch

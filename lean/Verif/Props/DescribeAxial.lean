/-
C76, axial models: what can be read back from the printed form.
-/
import Verif.Props.Describe

namespace OpenPile.Props.Describe
open OpenPile.Params OpenPile.Axial OpenPile.SoilModel OpenPile.Lateral OpenPile.Describe

/-- The lines of a text that begin with `tag`. -/
def linesWith (tag : List Char) (text : List String) : List String := text.filter fun l => l.toList.take tag.length == tag

theorem linesWith_append (tag : List Char) (a b : List String) :
    linesWith tag (a ++ b) = linesWith tag a ++ linesWith tag b := List.filter_append ..

theorem linesWith_cons (tag : List Char) (a : String) (b : List String) :
    linesWith tag (a :: b) = if (a.toList.take tag.length == tag) = true then a :: linesWith tag b else linesWith tag b := by
  unfold linesWith
  rw [List.filter_cons]

theorem linesWith_nil (tag : List Char) : linesWith tag [] = [] := rfl

theorem linesWith_opt (F : Fmt) (tag : List Char) (label : String) (d x : ℝ) :
    linesWith tag (optLine F label d x) =
      if ((("\t" ++ label).toList ++ (" = " ++ F.num x).toList).take tag.length == tag) = true then optLine F label d x
      else [] := by
  unfold optLine
  by_cases h : x = d
  · rw [if_pos h, linesWith_nil]; split_ifs <;> rfl
  · rw [if_neg h, linesWith_cons, linesWith_nil]
    simp only [String.toList_append, List.append_assoc]

theorem opt_inj {F : Fmt} (hF : Function.Injective F.num) {label : String} {d x y : ℝ}
    (h : optLine F label d x = optLine F label d y) : x = y := by
  unfold optLine at h
  by_cases h1 : x = d <;> by_cases h2 : y = d
  · rw [h1, h2]
  · rw [if_pos h1, if_neg h2] at h; cases h
  · rw [if_neg h1, if_pos h2] at h; cases h
  · rw [if_neg h1, if_neg h2] at h
    have h := (List.cons.inj h).1
    have h := congrArg String.toList h
    simp only [String.toList_append] at h
    exact hF (String.toList_inj.1 (List.append_cancel_left h))

theorem mult_num {F : Fmt} {label : String} {m : Mult} {l : List String} (h : multLine F label m = some l) :
    ∃ x, m = .num x ∧ l = optLine F label 1 x := by
  cases m with
  | num x => exact ⟨x, rfl, (Option.some.inj h).symm⟩
  | func f => cases h

/-- The line of a number that is mentioned when it differs from its default. -/
noncomputable def mention (F : Fmt) (label : String) (d x : ℝ) : List String :=
  open Classical in if x = d then [] else ["\t" ++ label ++ " = " ++ F.num x]

theorem mention_eq (F : Fmt) (label : String) (d x : ℝ) : mention F label d x = optLine F label d x := by
  unfold mention optLine
  by_cases h : x = d
  · simp only [if_pos h]
  · simp only [if_neg h]

/-- **C76, what is shown of a clay**: every factor is shown exactly if it is not the default. -/
theorem C76_mentions_clay (F : Fmt) (m : ClayAxial) (t z : Mult) (text : List String)
    (h : axial F (.clay m t z) = some text) : ∃ x y, t = .num x ∧ z = .num y ∧
      linesWith "\tt-m".toList text = mention F "t-multiplier" 1 x ∧
      linesWith "\tz-m".toList text = mention F "z-multiplier" 1 y ∧
      linesWith "\tQ-m".toList text = mention F "Q-multiplier" 1 m.qMul ∧
      linesWith "\tw-m".toList text = mention F "w-multiplier" 1 m.wMul ∧
      linesWith "\tt-r".toList text = mention F "t-residual" 0.9 m.tResidual ∧
      linesWith "\tten".toList text = mention F "tension_multiplier" 1 m.tensionMul := by
  have e9 : (0.9 : ℝ) = 9 / 10 := by norm_num
  simp only [axial, Option.bind_eq_bind, Option.bind_eq_some_iff, Option.pure_def, Option.some.injEq] at h
  obtain ⟨su, -, tl, ht, zl, hz, rfl⟩ := h
  obtain ⟨x, rfl, rfl⟩ := mult_num ht
  obtain ⟨y, rfl, rfl⟩ := mult_num hz
  refine ⟨x, y, rfl, rfl, ?_⟩
  simp only [mention_eq, linesWith_append, linesWith_opt, linesWith_cons, linesWith_nil, e9]
  refine ⟨?_, ?_, ?_, ?_, ?_, ?_⟩ <;> simp

/-- The same for a sand. -/
theorem C76_mentions_sand (F : Fmt) (m : SandAxial) (t z : Mult) (text : List String)
    (h : axial F (.sand m t z) = some text) : ∃ x y, t = .num x ∧ z = .num y ∧
      linesWith "\tt-m".toList text = mention F "t-multiplier" 1 x ∧
      linesWith "\tz-m".toList text = mention F "z-multiplier" 1 y ∧
      linesWith "\tQ-m".toList text = mention F "Q-multiplier" 1 m.qMul ∧
      linesWith "\tw-m".toList text = mention F "w-multiplier" 1 m.wMul ∧
      linesWith "\tten".toList text = mention F "tension_multiplier" 1 m.tensionMul := by
  simp only [axial, Option.bind_eq_bind, Option.bind_eq_some_iff, Option.pure_def, Option.some.injEq] at h
  obtain ⟨su, -, tl, ht, zl, hz, rfl⟩ := h
  obtain ⟨x, rfl, rfl⟩ := mult_num ht
  obtain ⟨y, rfl, rfl⟩ := mult_num hz
  refine ⟨x, y, rfl, rfl, ?_⟩
  simp only [mention_eq, linesWith_append, linesWith_opt, linesWith_cons, linesWith_nil]
  refine ⟨?_, ?_, ?_, ?_, ?_⟩ <;> simp

/-- What is said of the plugging. -/
def plugWords : Plugging → String
  | .both => "(Plugged)"
  | .none => "(Unplugged)"
  | .compression => "(Plugged in compression, unplugged in tension)"
  | .tension => "(Unplugged in compression, plugged in tension)"

theorem axial_head {F : Fmt} {a : AxialObj} {text : List String} (h : axial F a = some text) :
    text.take 3 = match a with
      | .clay m _ _ => ["\tAPI clay " ++ plugWords m.plugging, "\tSu = " ++ (varToStr F m.Su).getD "" ++ " kPa",
          "\talpha_limit = " ++ F.num m.alphaLimit]
      | .sand m _ _ => ["\tAPI sand " ++ plugWords m.plugging, "\tdelta = " ++ (varToStr F m.delta).getD "" ++ " deg",
          "\tK = " ++ F.num m.K] := by
  cases a with
  | clay m t z =>
    simp only [axial, Option.bind_eq_bind, Option.bind_eq_some_iff, Option.pure_def, Option.some.injEq] at h
    obtain ⟨su, hs, tl, ht, zl, hz, rfl⟩ := h
    simp only [hs]
    cases hp : m.plugging <;> simp [plugWords, plugStr]
  | sand m t z =>
    simp only [axial, Option.bind_eq_bind, Option.bind_eq_some_iff, Option.pure_def, Option.some.injEq] at h
    obtain ⟨su, hs, tl, ht, zl, hz, rfl⟩ := h
    simp only [hs]
    cases hp : m.plugging <;> simp [plugWords, plugStr]

theorem append_left_inj {a x y : String} (h : a ++ x = a ++ y) : x = y := by
  have h := congrArg String.toList h
  simp only [String.toList_append] at h
  exact String.toList_inj.1 (List.append_cancel_left h)

theorem append_right_inj {a x y : String} (h : x ++ a = y ++ a) : x = y := by
  have h := congrArg String.toList h
  simp only [String.toList_append] at h
  exact String.toList_inj.1 (List.append_cancel_right h)

theorem plugWords_inj {p q : Plugging} (h : plugWords p = plugWords q) : p = q := by
  revert h
  cases p <;> cases q <;> decide

/-- **C76, reading back the class of an axial model**: clay and sand print differently. -/
theorem C76_axial_class (F : Fmt) (m : ClayAxial) (m' : SandAxial) (t z t' z' : Mult) (text : List String)
    (h : axial F (.clay m t z) = some text) : axial F (.sand m' t' z') ≠ some text := by
  intro h'
  have e := (axial_head h).symm.trans (axial_head h')
  have e := (List.cons.inj e).1
  have e := congrArg String.toList e
  simp [String.toList_append] at e

/-- **C76, reading back a clay**: if numbers are written distinctly, clays that print alike have the same plugging, limit,
factors and strength as written. -/
theorem C76_axial_clay (F : Fmt) (hF : Function.Injective F.num) (m m' : ClayAxial) (t z t' z' : Mult) (text : List String)
    (h : axial F (.clay m t z) = some text) (h' : axial F (.clay m' t' z') = some text) :
    m.plugging = m'.plugging ∧ m.alphaLimit = m'.alphaLimit ∧ t = t' ∧ z = z' ∧ m.qMul = m'.qMul ∧ m.wMul = m'.wMul ∧
      m.tResidual = m'.tResidual ∧ m.tensionMul = m'.tensionMul ∧ varToStr F m.Su = varToStr F m'.Su := by
  have e := (axial_head h).symm.trans (axial_head h')
  simp only [List.cons.injEq, and_true] at e
  obtain ⟨x, y, rfl, rfl, a1, a2, a3, a4, a5, a6⟩ := C76_mentions_clay F m t z text h
  obtain ⟨x', y', rfl, rfl, b1, b2, b3, b4, b5, b6⟩ := C76_mentions_clay F m' t' z' text h'
  simp only [mention_eq] at a1 a2 a3 a4 a5 a6 b1 b2 b3 b4 b5 b6
  refine ⟨plugWords_inj (append_left_inj e.1), hF (append_left_inj e.2.2), ?_, ?_, opt_inj hF (a3.symm.trans b3),
    opt_inj hF (a4.symm.trans b4), opt_inj hF (a5.symm.trans b5), opt_inj hF (a6.symm.trans b6), ?_⟩
  · rw [opt_inj hF (a1.symm.trans b1)]
  · rw [opt_inj hF (a2.symm.trans b2)]
  · have k := append_left_inj (append_right_inj e.2.1)
    simp only [axial, Option.bind_eq_bind, Option.bind_eq_some_iff] at h h'
    obtain ⟨su, hs, -⟩ := h
    obtain ⟨su', hs', -⟩ := h'
    rw [hs, hs'] at k ⊢
    exact congrArg some k

/-- **C76, reading back a sand.** The factor for the friction inside is not shown (`C76_violated_inside`). -/
theorem C76_axial_sand (F : Fmt) (hF : Function.Injective F.num) (m m' : SandAxial) (t z t' z' : Mult) (text : List String)
    (h : axial F (.sand m t z) = some text) (h' : axial F (.sand m' t' z') = some text) :
    m.plugging = m'.plugging ∧ m.K = m'.K ∧ t = t' ∧ z = z' ∧ m.qMul = m'.qMul ∧ m.wMul = m'.wMul ∧
      m.tensionMul = m'.tensionMul ∧ varToStr F m.delta = varToStr F m'.delta := by
  have e := (axial_head h).symm.trans (axial_head h')
  simp only [List.cons.injEq, and_true] at e
  obtain ⟨x, y, rfl, rfl, a1, a2, a3, a4, a6⟩ := C76_mentions_sand F m t z text h
  obtain ⟨x', y', rfl, rfl, b1, b2, b3, b4, b6⟩ := C76_mentions_sand F m' t' z' text h'
  simp only [mention_eq] at a1 a2 a3 a4 a6 b1 b2 b3 b4 b6
  refine ⟨plugWords_inj (append_left_inj e.1), hF (append_left_inj e.2.2), ?_, ?_, opt_inj hF (a3.symm.trans b3),
    opt_inj hF (a4.symm.trans b4), opt_inj hF (a6.symm.trans b6), ?_⟩
  · rw [opt_inj hF (a1.symm.trans b1)]
  · rw [opt_inj hF (a2.symm.trans b2)]
  · have k := append_left_inj (append_right_inj e.2.1)
    simp only [axial, Option.bind_eq_bind, Option.bind_eq_some_iff] at h h'
    obtain ⟨su, hs, -⟩ := h
    obtain ⟨su', hs', -⟩ := h'
    rw [hs, hs'] at k ⊢
    exact congrArg some k

/-- **The friction inside an unplugged pile in sand is not shown**: sands that differ in it alone print alike. -/
theorem C76_violated_inside (F : Fmt) (m : SandAxial) (t z : Mult) (k : ℝ) :
    axial F (.sand { m with insideFriction := k } t z) = axial F (.sand m t z) := rfl

/-! ### cases -/

/-- A sand with a doubled `z`: four lines, of which the last mentions the factor. -/
example : ∃ text, axial plainFmt (.sand ⟨.scalar 25, 8 / 10, .none, 1, 1, 1, 1, 1, 1⟩ (.num 1) (.num 2)) = some text ∧
    linesWith "\tz-m".toList text = ["\tz-multiplier = 1.0"] ∧ linesWith "\tQ-m".toList text = [] := by
  have h : (axial plainFmt (.sand ⟨.scalar 25, 8 / 10, .none, 1, 1, 1, 1, 1, 1⟩ (.num 1) (.num 2))).isSome :=
    (axial_isSome plainFmt (a := .sand ⟨.scalar 25, 8 / 10, .none, 1, 1, 1, 1, 1, 1⟩ (.num 1) (.num 2)) trivial).2
      ⟨⟨_, rfl⟩, _, rfl⟩
  obtain ⟨text, ht⟩ := Option.isSome_iff_exists.1 h
  obtain ⟨x, y, e1, e2, -, a2, a3, -⟩ := C76_mentions_sand _ _ _ _ _ ht
  cases e1; cases e2
  refine ⟨text, ht, ?_, ?_⟩
  · rw [a2, mention, if_neg (by norm_num)]
    rfl
  · rw [a3, mention, if_pos rfl]

end OpenPile.Props.Describe

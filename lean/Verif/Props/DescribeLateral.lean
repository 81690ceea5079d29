/-
C76, lateral models: what can be read back from the printed form of the API models.
-/
import Verif.Props.DescribeAxial

namespace OpenPile.Props.Describe
open OpenPile.Params OpenPile.Axial OpenPile.SoilModel OpenPile.Lateral OpenPile.Describe

/-- What is said of the loading. -/
def loadingLine : Loading → String
  | .static => "\tstatic curves"
  | .cyclic => "\tcyclic curves"

/-- What is said of rotational springs. -/
def extensionLine : Bool → String
  | true => "\text: mt_curves"
  | false => "\text: None"

theorem loadingLine_inj {a b : Loading} (h : loadingLine a = loadingLine b) : a = b := by
  revert h
  cases a <;> cases b <;> decide

theorem extensionLine_inj {a b : Bool} (h : extensionLine a = extensionLine b) : a = b := by
  revert h
  cases a <;> cases b <;> decide

theorem varToStr_scalar {F : Fmt} (hF : Function.Injective F.num) {x y : ℝ}
    (h : varToStr F (.scalar x) = varToStr F (.scalar y)) : x = y := hF (Option.some.inj h)

/-- **C76, the text of `API_sand`**: angle, loading and rotational springs. -/
theorem C76_text_sand (F : Fmt) (s : ApiSand) (text : List String) (h : lateral F (.apiSand s) = some text) :
    ∃ phi, varToStr F s.phi = some phi ∧
      text = ["\tAPI sand", "\tphi = " ++ phi ++ "°", loadingLine s.kind, extensionLine s.mtCurves] := by
  simp only [lateral, Option.bind_eq_bind, Option.bind_eq_some_iff, Option.pure_def, Option.some.injEq] at h
  obtain ⟨phi, h1, rfl⟩ := h
  refine ⟨phi, h1, ?_⟩
  cases hk : s.kind <;> cases hm : s.mtCurves <;> rfl

/-- **C76, the text of `API_clay` and `Modified_Matlock_clay`**: strength, strain, loading and rotational springs. -/
theorem C76_text_clay (F : Fmt) (s : MatlockClay) (text : List String) (h : lateral F (.matlock s) = some text) :
    ∃ su eps, varToStr F s.Su = some su ∧ varToStr F s.eps50 = some eps ∧
      text = [match s.curve with | .api => "\tAPI clay" | .modified => "\tModified Matlock clay", "\tSu = " ++ su ++ " kPa",
        "\teps50 = " ++ eps, loadingLine s.kind, extensionLine s.mtCurves] := by
  simp only [lateral, Option.bind_eq_bind, Option.bind_eq_some_iff, Option.pure_def, Option.some.injEq] at h
  obtain ⟨su, h1, eps, h2, rfl⟩ := h
  refine ⟨su, eps, h1, h2, ?_⟩
  cases hc : s.curve <;> cases hk : s.kind <;> cases hm : s.mtCurves <;> rfl

/-- **C76, reading back `API_sand`**: sands that print alike have the same loading, the same rotational springs and the same angle as
written, and the same angle if it is one number and numbers are written distinctly. The modulus, the modification and the multipliers are
not shown (`C76_not_shown`). -/
theorem C76_lateral_sand (F : Fmt) (s s' : ApiSand) (text : List String) (h : lateral F (.apiSand s) = some text)
    (h' : lateral F (.apiSand s') = some text) : s.kind = s'.kind ∧ s.mtCurves = s'.mtCurves ∧ varToStr F s.phi = varToStr F s'.phi ∧
      (Function.Injective F.num → ∀ x y, s.phi = .scalar x → s'.phi = .scalar y → x = y) := by
  obtain ⟨p, h1, e1⟩ := C76_text_sand F s text h
  obtain ⟨p', h2, e2⟩ := C76_text_sand F s' text h'
  have e := e1.symm.trans e2
  simp only [List.cons.injEq, and_true, true_and] at e
  have hv : varToStr F s.phi = varToStr F s'.phi := by
    rw [h1, h2, append_left_inj (append_right_inj e.1)]
  refine ⟨loadingLine_inj e.2.1, extensionLine_inj e.2.2, hv, ?_⟩
  intro hF x y hx hy
  rw [hx, hy] at hv
  exact varToStr_scalar hF hv

/-- **C76, reading back `API_clay` and `Modified_Matlock_clay`.** -/
theorem C76_lateral_clay (F : Fmt) (s s' : MatlockClay) (text : List String) (h : lateral F (.matlock s) = some text)
    (h' : lateral F (.matlock s') = some text) : s.curve = s'.curve ∧ s.kind = s'.kind ∧ s.mtCurves = s'.mtCurves ∧
      varToStr F s.Su = varToStr F s'.Su ∧ varToStr F s.eps50 = varToStr F s'.eps50 ∧
      (Function.Injective F.num → ∀ x y, s.Su = .scalar x → s'.Su = .scalar y → x = y) ∧
      (Function.Injective F.num → ∀ x y, s.eps50 = .scalar x → s'.eps50 = .scalar y → x = y) := by
  obtain ⟨p, q, h1, g1, e1⟩ := C76_text_clay F s text h
  obtain ⟨p', q', h2, g2, e2⟩ := C76_text_clay F s' text h'
  have e := e1.symm.trans e2
  simp only [List.cons.injEq, and_true] at e
  obtain ⟨c1, c2, c3, c4, c5⟩ := e
  have hv : varToStr F s.Su = varToStr F s'.Su := by
    rw [h1, h2, append_left_inj (append_right_inj c2)]
  have hw : varToStr F s.eps50 = varToStr F s'.eps50 := by
    rw [g1, g2, append_left_inj c3]
  refine ⟨?_, loadingLine_inj c4, extensionLine_inj c5, hv, hw, ?_, ?_⟩
  · revert c1
    cases s.curve <;> cases s'.curve <;> simp
  · intro hF x y hx hy
    rw [hx, hy] at hv
    exact varToStr_scalar hF hv
  · intro hF x y hx hy
    rw [hx, hy] at hw
    exact varToStr_scalar hF hw

/-- **Multipliers, modulus and modification of the API models are not shown**: models that differ in these alone print alike. -/
theorem C76_not_shown (F : Fmt) (s : ApiSand) (c : MatlockClay) (k : Option (Param ℝ)) (md : Option Modification) (p y : Mult)
    (J : ℝ) : lateral F (.apiSand { s with modulus := k, modification := md, p := p, y := y }) = lateral F (.apiSand s) ∧
      lateral F (.matlock { c with J := J, p := p, y := y }) = lateral F (.matlock c) := ⟨rfl, rfl⟩

/-- The text of a sand under cyclic loading. -/
example : lateral plainFmt (.apiSand ⟨.scalar 35, .cyclic, none, none, .num 1, .num 1, true⟩)
    = some ["\tAPI sand", "\tphi = " ++ plainFmt.num 35 ++ "°", "\tcyclic curves", "\text: mt_curves"] := rfl

end OpenPile.Props.Describe

/-
C76: printing a soil profile.
-/
import Verif.Model.Describe
import Verif.Props.Conic
import Verif.Props.Defined

namespace OpenPile.Props.Describe
open OpenPile.Params OpenPile.Axial OpenPile.SoilModel OpenPile.Lateral OpenPile.Describe

/-! ### what the constructors accept -/

/-- A number, or a list of one or two numbers: the type of soil parameters "if a variation in values, two values can
be given". -/
def Values : Param ℝ → Prop
  | .scalar _ => True
  | .list l => l.length = 1 ∨ l.length = 2
  | _ => False

/-- The declared types of the parameters that the printed form uses. -/
def Typed : Model → Prop
  | .pisaClay s => Values s.Su ∧ Values s.G0
  | .dunkirk s => Values s.Dr ∧ Values s.G0
  | .custom _ => True
  | .apiSand s => Values s.phi
  | .matlock s => Values s.Su ∧ Values s.eps50
  | .rock s => Values s.Ei ∧ Values s.qu

/-- The same for axial models (multipliers may be functions). -/
def TypedAxial : AxialObj → Prop
  | .clay m _ _ => Values m.Su
  | .sand m _ _ => Values m.delta

/-- A profile with well-typed models. -/
def Accepted (ls : List Layer) : Prop :=
  ∀ l ∈ ls, (∀ m, l.lateral = some m → Typed m) ∧ (∀ a, l.axial = some a → TypedAxial a)

/-! ### when printing works -/

/-- The parameter is one number. -/
def Number (p : Param ℝ) : Prop := ∃ x, p = .scalar x

/-- The stiffness `G0` of a PISA model is one number (other models do not print it). -/
def PlainStiffness : Model → Prop
  | .pisaClay s => Number s.G0
  | .dunkirk s => Number s.G0
  | .custom s => Number s.G0
  | _ => True

/-- The multipliers of an axial model are numbers. -/
def PlainMultipliers : AxialObj → Prop
  | .clay _ t z => (∃ x, t = .num x) ∧ ∃ x, z = .num x
  | .sand _ t z => (∃ x, t = .num x) ∧ ∃ x, z = .num x

theorem varToStr_values (F : Fmt) {p : Param ℝ} (h : Values p) : ∃ s, varToStr F p = some s := by
  cases p with
  | scalar x => exact ⟨_, rfl⟩
  | list l => exact ⟨_, rfl⟩
  | func f => exact h.elim
  | object f => exact h.elim

theorem megaStr_isSome (F : Fmt) (p : Param ℝ) : (megaStr F p).isSome ↔ Number p := by
  cases p <;> simp [megaStr, Number]

theorem lateral_isSome (F : Fmt) {m : Model} (h : Typed m) : (lateral F m).isSome ↔ PlainStiffness m := by
  cases m with
  | pisaClay s =>
    obtain ⟨x, hx⟩ := varToStr_values F h.1
    rw [show PlainStiffness (.pisaClay s) = Number s.G0 from rfl, ← megaStr_isSome F]
    simp only [lateral, hx, Option.bind_eq_bind, Option.bind_some]
    cases megaStr F s.G0 <;> cases s.kind <;> simp
  | dunkirk s =>
    obtain ⟨x, hx⟩ := varToStr_values F h.1
    rw [show PlainStiffness (.dunkirk s) = Number s.G0 from rfl, ← megaStr_isSome F]
    simp only [lateral, hx, Option.bind_eq_bind, Option.bind_some]
    cases megaStr F s.G0 <;> simp
  | custom s =>
    rw [show PlainStiffness (.custom s) = Number s.G0 from rfl, ← megaStr_isSome F]
    simp only [lateral, Option.bind_eq_bind]
    cases megaStr F s.G0 <;> cases s.Su <;> simp
  | apiSand s =>
    obtain ⟨x, hx⟩ := varToStr_values F h
    simp [lateral, hx, PlainStiffness]
  | matlock s =>
    obtain ⟨x, hx⟩ := varToStr_values F h.1
    obtain ⟨y, hy⟩ := varToStr_values F h.2
    simp [lateral, hx, hy, PlainStiffness]
  | rock s =>
    obtain ⟨x, hx⟩ := varToStr_values F h.1
    obtain ⟨y, hy⟩ := varToStr_values F h.2
    simp [lateral, hx, hy, PlainStiffness]

theorem multLine_isSome (F : Fmt) (lab : String) (m : Mult) : (multLine F lab m).isSome ↔ ∃ x, m = .num x := by
  cases m <;> simp [multLine, multToStr]

theorem axial_isSome (F : Fmt) {a : AxialObj} (h : TypedAxial a) : (axial F a).isSome ↔ PlainMultipliers a := by
  cases a with
  | clay m t z =>
    obtain ⟨x, hx⟩ := varToStr_values F h
    rw [show PlainMultipliers (.clay m t z) = ((∃ x, t = .num x) ∧ ∃ x, z = .num x) from rfl,
      ← multLine_isSome F "t-multiplier", ← multLine_isSome F "z-multiplier"]
    simp only [axial, hx, Option.bind_eq_bind, Option.bind_some]
    cases multLine F "t-multiplier" t <;> cases multLine F "z-multiplier" z <;> simp
  | sand m t z =>
    obtain ⟨x, hx⟩ := varToStr_values F h
    rw [show PlainMultipliers (.sand m t z) = ((∃ x, t = .num x) ∧ ∃ x, z = .num x) from rfl,
      ← multLine_isSome F "t-multiplier", ← multLine_isSome F "z-multiplier"]
    simp only [axial, hx, Option.bind_eq_bind, Option.bind_some]
    cases multLine F "t-multiplier" t <;> cases multLine F "z-multiplier" z <;> simp

/-- Printing a layer raises nothing. -/
def Prints (l : Layer) : Prop :=
  (∀ m, l.lateral = some m → PlainStiffness m) ∧ (∀ a, l.axial = some a → PlainMultipliers a)

theorem layer_isSome (F : Fmt) (l : Layer) (h1 : ∀ m, l.lateral = some m → Typed m)
    (h2 : ∀ a, l.axial = some a → TypedAxial a) : (layer F l).isSome ↔ Prints l := by
  have e1 : (optText (lateral F) l.lateral).isSome ↔ ∀ m, l.lateral = some m → PlainStiffness m := by
    cases e : l.lateral with
    | none => simp [optText]
    | some m =>
      simp only [optText, Option.some.injEq, forall_eq']
      exact lateral_isSome F (h1 m e)
  have e2 : (optText (axial F) l.axial).isSome ↔ ∀ a, l.axial = some a → PlainMultipliers a := by
    cases e : l.axial with
    | none => simp [optText]
    | some a =>
      simp only [optText, Option.some.injEq, forall_eq']
      exact axial_isSome F (h2 a e)
  unfold Prints
  rw [← e1, ← e2]
  simp only [layer, Option.bind_eq_bind]
  cases optText (lateral F) l.lateral <;> cases optText (axial F) l.axial <;> simp

theorem layers_isSome (F : Fmt) (ls : List Layer) (h : Accepted ls) (i : ℕ) :
    (layers F i ls).isSome ↔ ∀ l ∈ ls, Prints l := by
  induction ls generalizing i with
  | nil => simp [layers]
  | cons l ls ih =>
    have hl := layer_isSome F l (h l (by simp)).1 (h l (by simp)).2
    have ht := ih (fun x hx => h x (by simp [hx])) (i + 1)
    simp only [List.forall_mem_cons, ← hl, ← ht]
    simp only [layers, Option.bind_eq_bind]
    cases layer F l <;> cases layers F (i + 1) ls <;> simp

/-- **C76, printing** (missing: the profiles of `C76_violated_linear` and `C76_violated_function`).  Of the profiles
that can be created, exactly those are printed whose PISA layers have a constant `G0` given as one number and whose
axial models have numbers as multipliers. -/
theorem C76_prints_partial (F : Fmt) (ls : List Layer) (h : Accepted ls) :
    (profile F ls).isSome ↔ ∀ l ∈ ls, (∀ m, l.lateral = some m → PlainStiffness m) ∧
      (∀ a, l.axial = some a → PlainMultipliers a) := layers_isSome F ls h 0

/-- **C76 is violated by a stiffness that varies over the layer**, the documented way of giving two values: every
profile with such a layer of Cowden clay raises when printed, although its springs exist at every depth of the layer
down to six diameters. -/
theorem C76_violated_linear (F : Fmt) (ls : List Layer) (l : Layer) (s : PisaClay) (g h su : ℝ) (a : Args) (hl : l ∈ ls)
    (hm : l.lateral = some (.pisaClay s)) (hk : s.kind = .cowden) (hs : s.Su = .scalar su) (hG : s.G0 = .list [g, h])
    (hp : s.p = .num 1) (hy : s.y = .num 1) (hg : 0 < g) (hh : 0 < h) (hX : 0 ≤ a.X) (h6 : a.X ≤ 6 * a.D) (hD : 0 < a.D)
    (h5 : 5 ≤ a.len) (hd : 0 ≤ a.depth) (hd1 : a.depth ≤ a.height) (hh0 : 0 < a.height) :
    profile F ls = none ∧ ∃ c, s.py a = some c := by
  constructor
  · have key : ∀ (ls : List Layer) (i : ℕ), l ∈ ls → layers F i ls = none := by
      intro ls
      induction ls with
      | nil => intro i h; cases h
      | cons b ls ih =>
        intro i hb
        rcases List.mem_cons.1 hb with rfl | hb
        · have e : optText (lateral F) l.lateral = none := by
            rw [hm]
            simp only [optText, lateral, hG, hs, varToStr, megaStr, Option.bind_eq_bind, Option.bind_some,
              Option.bind_none]
          simp only [layers, layer, e, Option.bind_eq_bind, Option.bind_none]
        · simp only [layers, ih _ hb, Option.bind_eq_bind]
          cases layer F b <;> rfl
    exact key ls 0 hl
  · have e1 : layered s.Su a.depth a.height = some (su + (su - su) * a.depth / a.height) := by
      simp [layered, topBottom, hs, hh0.ne']
    have e2 : layered s.G0 a.depth a.height = some (g + (h - g) * a.depth / a.height) := by
      simp [layered, topBottom, hG, hh0.ne']
    have hpos : 0 < g + (h - g) * a.depth / a.height := by
      have h1 : 0 ≤ a.depth / a.height := div_nonneg hd hh0.le
      have h2 : a.depth / a.height ≤ 1 := (div_le_one hh0).2 hd1
      have : g + (h - g) * a.depth / a.height = g * (1 - a.depth / a.height) + h * (a.depth / a.height) := by ring
      rw [this]
      rcases eq_or_lt_of_le h2 with e | e
      · rw [e]; simpa using hh
      · have := mul_pos hg (sub_pos.2 e)
        have := mul_nonneg hh.le h1
        linarith
    obtain ⟨c, hc, -⟩ := Defined.pyCowden_some (Su := su + (su - su) * a.depth / a.height) hD hpos hX h6 h5
    refine ⟨Conic.scale 1 1 c, ?_⟩
    unfold PisaClay.py SoilModel.guard
    rw [if_neg (not_lt.2 hd1), e1, e2]
    simp only [Option.bind_eq_bind, Option.bind_some, PisaClay.pyCurve, hk, hc, multiply, hp, hy, Mult.val]
    rfl

/-- **C76 is violated by functions as axial multipliers**, which the constructor accepts: such a layer can neither be
printed nor give a t-z spring, whatever the arguments. -/
theorem C76_violated_function (F : Fmt) (a : AxialObj) (f : ℝ → Option ℝ) (hf : (∃ m z, a = .clay m (.func f) z) ∨
      (∃ m t, a = .clay m t (.func f)) ∨ (∃ m z, a = .sand m (.func f) z) ∨ ∃ m t, a = .sand m t (.func f)) :
    axial F a = none ∧ ∀ cin cout sig height depth D len draws argsort,
      a.tz cin cout sig height depth D len draws argsort = none := by
  rcases hf with ⟨m, z, rfl⟩ | ⟨m, t, rfl⟩ | ⟨m, z, rfl⟩ | ⟨m, t, rfl⟩
  · refine ⟨?_, fun _ _ _ _ _ _ _ _ _ => rfl⟩
    simp only [axial, multLine, multToStr, Option.bind_eq_bind, Option.bind_none]
    cases varToStr F m.Su <;> rfl
  · refine ⟨?_, fun _ _ _ _ _ _ _ _ _ => by cases t <;> rfl⟩
    simp only [axial, multLine, multToStr, Option.bind_eq_bind, Option.bind_none]
    cases varToStr F m.Su <;> cases t <;> rfl
  · refine ⟨?_, fun _ _ _ _ _ _ _ _ _ => rfl⟩
    simp only [axial, multLine, multToStr, Option.bind_eq_bind, Option.bind_none]
    cases varToStr F m.delta <;> rfl
  · refine ⟨?_, fun _ _ _ _ _ _ _ _ _ => by cases t <;> rfl⟩
    simp only [axial, multLine, multToStr, Option.bind_eq_bind, Option.bind_none]
    cases varToStr F m.delta <;> cases t <;> rfl

/-! ### the name that is printed -/

/-- The classes of lateral models. -/
inductive Class
  | bothkennar | cowden | dunkirk | customSand | customClay | apiSand | apiClay | matlockClay | weakrock
deriving DecidableEq, Repr

/-- The class of a model. -/
def classOf : Model → Class
  | .pisaClay s => match s.kind with
    | .bothkennar => .bothkennar
    | .cowden => .cowden
  | .dunkirk _ => .dunkirk
  | .custom s => match s.Su with
    | none => .customSand
    | some _ => .customClay
  | .apiSand _ => .apiSand
  | .matlock s => match s.curve with
    | .api => .apiClay
    | .modified => .matlockClay
  | .rock _ => .weakrock

/-- The first line for each class. -/
def title : Class → String
  | .bothkennar => "\tCowden clay (PISA)"
  | .cowden => "\tCowden clay (PISA)"
  | .dunkirk => "\tDunkirk sand (PISA)"
  | .customSand => "\tCustom PISA sand"
  | .customClay => "\tCustom PISA sand"
  | .apiSand => "\tAPI sand"
  | .apiClay => "\tAPI clay"
  | .matlockClay => "\tModified Matlock clay"
  | .weakrock => "\tReese weakrock"

theorem head_lateral (F : Fmt) {m : Model} {s : List String} (h : lateral F m = some s) :
    s.head? = some (title (classOf m)) := by
  cases m with
  | pisaClay q =>
    simp only [lateral, Option.bind_eq_bind, Option.bind_eq_some_iff] at h
    obtain ⟨x, -, y, -, h⟩ := h
    simp only [classOf]
    cases e : q.kind <;> rw [e] at h <;> cases h <;> rfl
  | dunkirk q =>
    simp only [lateral, Option.bind_eq_bind, Option.bind_eq_some_iff] at h
    obtain ⟨x, -, y, -, h⟩ := h
    cases h; rfl
  | custom q =>
    simp only [lateral, Option.bind_eq_bind, Option.bind_eq_some_iff] at h
    obtain ⟨x, -, h⟩ := h
    simp only [classOf]
    cases e : q.Su <;> rw [e] at h <;> cases h <;> rfl
  | apiSand q =>
    simp only [lateral, Option.bind_eq_bind, Option.bind_eq_some_iff] at h
    obtain ⟨x, -, h⟩ := h
    cases h; rfl
  | matlock q =>
    simp only [lateral, Option.bind_eq_bind, Option.bind_eq_some_iff] at h
    obtain ⟨x, -, y, -, h⟩ := h
    simp only [classOf]
    cases e : q.curve <;> rw [e] at h <;> cases h <;> rfl
  | rock q =>
    simp only [lateral, Option.bind_eq_bind, Option.bind_eq_some_iff] at h
    obtain ⟨x, -, y, -, h⟩ := h
    cases h; rfl

/-- **C76, names** (missing: the two pairs of classes of `C76_violated_name`).  Models that print the same text are of
the same class, or are the two natural clays, or the two custom models. -/
theorem C76_names_partial (F : Fmt) (m m' : Model) (s : List String) (h : lateral F m = some s)
    (h' : lateral F m' = some s) :
    classOf m = classOf m' ∨ (classOf m ∈ [Class.bothkennar, .cowden] ∧ classOf m' ∈ [Class.bothkennar, .cowden]) ∨
      (classOf m ∈ [Class.customSand, .customClay] ∧ classOf m' ∈ [Class.customSand, .customClay]) := by
  have e := (head_lateral F h).symm.trans (head_lateral F h')
  have e := Option.some.inj e
  generalize classOf m = c at e
  generalize classOf m' = c' at e
  revert e
  cases c <;> cases c' <;> decide

theorem scaled_second {xu n k yu sx sy : ℝ} {len : ℕ} {l : List (ℝ × ℝ)}
    (h : Conic.scaledConic xu n k yu sx sy len = some l) : (l.map Prod.fst)[1]? = some (2 / 100 * xu * sx) := by
  unfold Conic.scaledConic at h
  obtain ⟨c, hc, rfl⟩ := Option.map_eq_some_iff.1 h
  have hm := (Conic.conic_points hc).2.2.1
  have : (Conic.scale sx sy c).map Prod.fst = (c.map Prod.fst).map (· * sx) := by
    simp [Conic.scale, Function.comp_def]
  rw [this, hm]
  simp [Conic.conicX]

/-- **C76 is violated by the names of the natural clays.**  Bothkennar clay is printed as Cowden clay: two layers that
differ only in this have the same text, while their p-y springs differ at every depth down to six diameters. -/
theorem C76_violated_name (F : Fmt) (s : PisaClay) (su g : ℝ) (a : Args) (hs : s.Su = .scalar su)
    (hG : s.G0 = .scalar g) (hp : s.p = .num 1) (hy : s.y = .num 1) (hsu : 0 < su) (hg : 0 < g) (hX : 0 ≤ a.X)
    (h6 : a.X ≤ 6 * a.D) (hD : 0 < a.D) (h5 : 5 ≤ a.len) (hd1 : a.depth ≤ a.height) (hh0 : 0 < a.height) :
    lateral F (.pisaClay { s with kind := .bothkennar }) = lateral F (.pisaClay { s with kind := .cowden }) ∧
      ∃ b c, ({ s with kind := .bothkennar } : PisaClay).py a = some b ∧
        ({ s with kind := .cowden } : PisaClay).py a = some c ∧ b ≠ c := by
  refine ⟨rfl, ?_⟩
  have e1 : layered s.Su a.depth a.height = some su := by simp [layered, topBottom, hs, hh0.ne']
  have e2 : layered s.G0 a.depth a.height = some g := by simp [layered, topBottom, hG, hh0.ne']
  obtain ⟨b, hb, -⟩ := Defined.pyBothkennar_some (Su := su) hD hg hX h6 h5
  obtain ⟨c, hc, -⟩ := Defined.pyCowden_some (Su := su) hD hg hX h6 h5
  refine ⟨Conic.scale 1 1 b, Conic.scale 1 1 c, ?_, ?_, ?_⟩
  · unfold PisaClay.py SoilModel.guard
    simp only [e1, e2, if_neg (not_lt.2 hd1), Option.bind_eq_bind, Option.bind_some, PisaClay.pyCurve, hb, multiply, hp,
      hy, Mult.val]
    rfl
  · unfold PisaClay.py SoilModel.guard
    simp only [e1, e2, if_neg (not_lt.2 hd1), Option.bind_eq_bind, Option.bind_some, PisaClay.pyCurve, hc, multiply, hp,
      hy, Mult.val]
    rfl
  · intro h
    have one : ∀ l : List (ℝ × ℝ), Conic.scale 1 1 l = l := by
      intro l; simp [Conic.scale]
    rw [one, one] at h
    subst h
    unfold Conic.pyBothkennar at hb
    unfold Conic.pyCowden at hc
    rw [if_neg (by push Not; exact ⟨hD.ne', hg.ne'⟩)] at hb hc
    have := (scaled_second hb).symm.trans (scaled_second hc)
    have := Option.some.inj this
    have hx : 0 < su * a.D / g := by positivity
    nlinarith

/-- Custom PISA clay is printed as custom PISA sand, whatever its parameters. -/
theorem C76_violated_custom_name (F : Fmt) (s : Custom) (su : Param ℝ) :
    lateral F (.custom { s with Su := some su }) = lateral F (.custom { s with Su := none }) := rfl

/-! ### cases that meet the hypotheses -/

/-- A way of writing numbers. -/
def plainFmt : Fmt := ⟨fun _ => "1.0", fun n => toString n, id⟩

/-- A layer of Cowden clay over a layer of API sand with an axial model. -/
noncomputable def sample : List Layer :=
  [⟨"a", 0, -10, 18, some (.pisaClay ⟨.cowden, .list [50, 80], .scalar 50000, .num 1, .num 1, .num 1, .num 1⟩), none⟩,
   ⟨"b", -10, -20, 18, some (.apiSand ⟨.scalar 33, .static, none, none, .func some, .num 1, false⟩),
    some (.sand ⟨.scalar 25, 8 / 10, .none, 1, 1, 1, 1, 1, 1⟩ (.num 1) (.num 2))⟩]

example : Accepted sample ∧ (profile plainFmt sample).isSome := by
  have h : Accepted sample := by
    intro l hl
    simp only [sample, List.mem_cons, List.not_mem_nil, or_false] at hl
    rcases hl with rfl | rfl
    · exact ⟨fun m hm => by cases hm; simp [Typed, Values], fun a ha => by cases ha⟩
    · exact ⟨fun m hm => by cases hm; simp [Typed, Values], fun a ha => by cases ha; simp [TypedAxial, Values]⟩
  refine ⟨h, (C76_prints_partial plainFmt sample h).2 ?_⟩
  intro l hl
  simp only [sample, List.mem_cons, List.not_mem_nil, or_false] at hl
  rcases hl with rfl | rfl
  · exact ⟨fun m hm => by cases hm; exact ⟨_, rfl⟩, fun a ha => by cases ha⟩
  · exact ⟨fun m hm => by cases hm; trivial, fun a ha => by cases ha; exact ⟨⟨_, rfl⟩, ⟨_, rfl⟩⟩⟩

/-- A profile with linearly varying stiffness: not printed, springs 1 m below the top of the layer. -/
example : profile plainFmt [⟨"a", 0, -10, 18,
      some (.pisaClay ⟨.cowden, .scalar 50, .list [50000, 80000], .num 1, .num 1, .num 1, .num 1⟩), none⟩] = none ∧
    ∃ c, (⟨.cowden, .scalar 50, .list [50000, 80000], .num 1, .num 1, .num 1, .num 1⟩ : PisaClay).py
      ⟨8, 1, 10, 1, 5, 20, true, 0, 15⟩ = some c :=
  C76_violated_linear plainFmt _ _ _ 50000 80000 50 _ (List.mem_singleton.2 rfl) rfl rfl rfl rfl rfl rfl (by norm_num)
    (by norm_num) (by norm_num) (by norm_num) (by norm_num) (by norm_num) (by norm_num) (by norm_num) (by norm_num)

/-- Bothkennar and Cowden clay at the same place. -/
example := C76_violated_name plainFmt ⟨.cowden, .scalar 50, .scalar 50000, .num 1, .num 1, .num 1, .num 1⟩ 50 50000
  ⟨8, 1, 10, 1, 5, 20, true, 0, 15⟩ rfl rfl rfl rfl (by norm_num) (by norm_num) (by norm_num) (by norm_num)
  (by norm_num) (by norm_num) (by norm_num) (by norm_num)

end OpenPile.Props.Describe

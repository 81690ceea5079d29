/-
C112: what the constructors of the soil models accept can be used in a Model.
-/
import Verif.Model.Accept
import Verif.Props.Capacity
import Verif.Props.Conic
import Verif.Props.Uplift
import Verif.Props.Creation
import Verif.Props.Warnings

namespace OpenPile.Props.Accept
open OpenPile OpenPile.Params OpenPile.SoilModel OpenPile.Axial OpenPile.Assemble OpenPile.Spec.Sound
open OpenPile.Accept (field mult amount positive nonneg range shape)
open OpenPile.Props.Capacity (GoodDraws GoodTip GoodLateral C64_model_partial)
open OpenPile.Conic

/-! ### what remains to be asked of an accepted model -/

/-- A parameter given by numbers, none of them above `hi`. -/
def Below (p : Param ℝ) (hi : ℝ) : Prop := ∃ t b, Ends p t b ∧ t ≤ hi ∧ b ≤ hi

/-- A function of the depth with a value `P` wherever it is asked (what a constructor cannot check). -/
def Proper (P : ℝ → Prop) (p : Param ℝ) : Prop := ∃ f, p = .func f ∧ ∀ X, 0 ≤ X → ∃ v, f X = some v ∧ P v

/-- A parameter given by numbers, or by a function with values `P`. -/
def Given (P : ℝ → Prop) (p : Param ℝ) : Prop := (∃ t b, Ends p t b) ∨ Proper P p

/-- A reaction curve with a shape up to one half; functions have values in the ranges that the class sets for numbers. -/
def Numbers (c : Conics) : Prop :=
  Given (fun v => 0 < v) c.X ∧ (Below c.n (1 / 2) ∨ Proper (fun v => 0 ≤ v ∧ v ≤ 1 / 2) c.n) ∧ Given (fun _ => True) c.k ∧
    Given (fun v => 0 < v) c.Y

/-- Functions of the depth give a value wherever they are asked; PISA models within the range of the project, Dunkirk sand
up to 50 %; custom models with shapes up to one half. Models of the API and weak rock are only asked for their functions. -/
def Usable (D L : ℝ) : SoilModel.Model → Prop
  | .pisaClay s => Slender D L ∧ Everywhere s.p ∧ Everywhere s.y ∧ Everywhere s.m ∧ Everywhere s.t
  | .dunkirk s => Slender D L ∧ Below s.Dr 50 ∧ Everywhere s.p ∧ Everywhere s.y ∧ Everywhere s.m ∧ Everywhere s.t
  | .custom s => (∀ p, s.Su = some p → Given (fun _ => True) p) ∧ Given (fun v => 0 < v) s.G0 ∧ Numbers s.pyC ∧ Numbers s.mtC ∧
      Numbers s.hbC ∧ Numbers s.mbC ∧ Everywhere s.p ∧ Everywhere s.y ∧ Everywhere s.m ∧ Everywhere s.t
  | .apiSand s => Everywhere s.p ∧ Everywhere s.y
  | .matlock s => Everywhere s.p ∧ Everywhere s.y
  | .rock s => Everywhere s.p ∧ Everywhere s.y

/-- The friction angle of an axial sand model is less than a right angle if it is one number. -/
def Acute : AxialModel → Prop
  | .clay _ => True
  | .sand m => ∀ δ, m.delta = .scalar δ → δ < 90

/-! ### parameters -/

theorem field_ends {P Q : ℝ → Prop} {c : Bool} {p : Param ℝ} {t b : ℝ} (h : field P Q c p) (he : Ends p t b) :
    P t ∧ P b ∨ Q t ∧ Q b := by
  cases he with
  | scalar => exact Or.inl ⟨h, h⟩
  | single => exact Or.inr ⟨h.2.2 _ (by simp), h.2.2 _ (by simp)⟩
  | pair => exact Or.inr ⟨h.2.2 _ (by simp), h.2.2 _ (by simp)⟩

theorem field_same {P : ℝ → Prop} {c : Bool} {p : Param ℝ} {t b : ℝ} (h : field P P c p) (he : Ends p t b) : P t ∧ P b :=
  (field_ends h he).elim id id

theorem field_numbers {P Q : ℝ → Prop} {p : Param ℝ} (h : field P Q false p) : ∃ t b, Ends p t b := by
  cases p with
  | scalar x => exact ⟨_, _, .scalar x⟩
  | list l =>
    obtain ⟨h1, h2, -⟩ := h
    match l, h1, h2 with
    | [x], _, _ => exact ⟨_, _, .single x⟩
    | [x, y], _, _ => exact ⟨_, _, .pair x y⟩
  | func f => cases h
  | object f => cases h

theorem layered_ends {p : Param ℝ} {t b d h : ℝ} (he : Ends p t b) (hh : 0 < h) :
    layered p d h = some (t + (b - t) * d / h) := by
  cases he <;> simp [layered, topBottom, hh.ne']

theorem amount_positive {p : Param ℝ} (h : amount p) : Positive p := by
  obtain ⟨t, b, he⟩ := field_numbers h
  exact ⟨t, b, he, field_same h he⟩

/-- Between the two values, the value at a depth inside the layer. -/
theorem between {t b d h lo hi : ℝ} (hd : 0 ≤ d) (hdh : d ≤ h) (hh : 0 < h) (ht : lo ≤ t) (hb : lo ≤ b) (ht' : t ≤ hi)
    (hb' : b ≤ hi) : lo ≤ t + (b - t) * d / h ∧ t + (b - t) * d / h ≤ hi := by
  have hw0 : 0 ≤ d / h := div_nonneg hd hh.le
  have hw1 : d / h ≤ 1 := (div_le_one hh).2 hdh
  rw [mul_div_assoc]
  constructor <;> nlinarith

/-- **C112, parameters.** A strength, modulus or density that is accepted has a positive value at every depth of the
layer, between the values given. -/
theorem C112_amount {p : Param ℝ} (h : amount p) {d height : ℝ} (hd : 0 ≤ d) (hdh : d ≤ height) (hh : 0 < height) :
    ∃ t b v, Ends p t b ∧ layered p d height = some v ∧ 0 < v ∧ min t b ≤ v ∧ v ≤ max t b := by
  obtain ⟨t, b, he⟩ := field_numbers h
  obtain ⟨h1, h2⟩ := field_same h he
  have := between hd hdh hh (min_le_left t b) (min_le_right t b) (le_max_left t b) (le_max_right t b)
  exact ⟨t, b, _, he, layered_ends he hh, (lt_min h1 h2).trans_le this.1, this⟩

/-- **C112, what is accepted as an amount**: one number, or one or two numbers in a list, all positive; nothing else. -/
theorem C112_amount_iff (p : Param ℝ) : amount p ↔ Positive p := by
  refine ⟨amount_positive, ?_⟩
  rintro ⟨t, b, he, ht, hb⟩
  cases he with
  | scalar => exact ht
  | single => exact ⟨by simp, by simp, fun x hx => by rw [List.mem_singleton.1 hx]; exact ht⟩
  | pair =>
    refine ⟨by simp, by simp, fun x hx => ?_⟩
    simp only [List.mem_cons, List.not_mem_nil, or_false] at hx
    rcases hx with rfl | rfl
    · exact ht
    · exact hb

/-- A parameter between the limits that the class sets. -/
theorem between_field {lo hi : ℝ} {p : Param ℝ} (h : field (range lo hi) (range lo hi) false p) : Between p lo hi := by
  obtain ⟨t, b, he⟩ := field_numbers h
  obtain ⟨⟨h1, h2⟩, h3, h4⟩ := field_same h he
  exact ⟨t, b, he, h1, h2, h3, h4⟩

theorem custom_ends {p : Param ℝ} {t b : ℝ} (he : Ends p t b) {P : ℝ → Prop}
    (h : ∀ w, 0 ≤ w → w ≤ 1 → P (t + (b - t) * w)) : Custom p P := by
  cases he <;> exact ⟨_, _, by constructor, h⟩

theorem custom_proper {P : ℝ → Prop} {p : Param ℝ} (h : Proper P p) : Custom p P := by
  obtain ⟨f, rfl, h⟩ := h
  exact h

theorem custom_any {p : Param ℝ} (h : Given (fun _ => True) p) : Custom p (fun _ => True) := by
  rcases h with ⟨t, b, he⟩ | h
  · exact custom_ends he fun _ _ _ => trivial
  · exact custom_proper h

theorem custom_positive {p : Param ℝ} {c : Bool} (h : field positive positive c p) (hn : Given (fun v => 0 < v) p) :
    Custom p (fun v => 0 < v) := by
  rcases hn with ⟨t, b, he⟩ | hn
  swap
  · exact custom_proper hn
  obtain ⟨h1, h2⟩ := field_same h he
  refine custom_ends he fun w h0 h1' => ?_
  unfold OpenPile.Accept.positive at h1 h2
  rcases h0.eq_or_lt with rfl | hw
  · simpa using h1
  · nlinarith [mul_pos h2 hw, mul_nonneg h1.le (sub_nonneg.2 h1')]

theorem moderate {c : Conics} (h : OpenPile.Accept.conics c) (hn : Numbers c) : Moderate c := by
  obtain ⟨hX, hs, hk, hY⟩ := h
  obtain ⟨nX, nn, nk, nY⟩ := hn
  refine ⟨custom_positive hX nX, ?_, custom_any nk, custom_positive hY nY⟩
  rcases nn with ⟨t, b, he, ht, hb⟩ | nn
  · obtain ⟨⟨h1, -⟩, h2, -⟩ := field_same hs he
    refine custom_ends he fun w h0 h1' => ⟨?_, ?_⟩
    · nlinarith [mul_nonneg h2 h0, mul_nonneg h1 (sub_nonneg.2 h1')]
    · nlinarith [mul_nonneg (sub_nonneg.2 hb) h0, mul_nonneg (sub_nonneg.2 ht) (sub_nonneg.2 h1')]
  · exact custom_proper nn

/-! ### models -/

/-- **C112, lateral models.** Accepted lateral models have all the springs: those of the API and weak rock for every
pile, PISA models for piles in the range of the project. -/
theorem C112_lateral {D L : ℝ} {m : SoilModel.Model} (h : OpenPile.Accept.lateral m) (hu : Usable D L m) : Lateral D L m := by
  cases m with
  | pisaClay s =>
    obtain ⟨h1, h2, -⟩ := h
    obtain ⟨u1, u2⟩ := hu
    exact ⟨u1, amount_positive h1, amount_positive h2, u2⟩
  | dunkirk s =>
    obtain ⟨h1, h2, -⟩ := h
    obtain ⟨u1, ⟨t, b, he, ht, hb⟩, u2⟩ := hu
    obtain ⟨p1, p2⟩ := field_same h1 he
    exact ⟨u1, ⟨t, b, he, p1.le, ht, p2.le, hb⟩, amount_positive h2, u2⟩
  | custom s =>
    obtain ⟨-, h2, h3, h4, h5, h6, -⟩ := h
    obtain ⟨u1, u2, u3, u4, u5, u6, u7⟩ := hu
    exact ⟨fun p hp => custom_any (u1 p hp), custom_positive h2 u2, moderate h3 u3, moderate h4 u4, moderate h5 u5,
      moderate h6 u6, u7⟩
  | apiSand s =>
    obtain ⟨h1, h2, -⟩ := h
    obtain ⟨t, b, he, a1, a2, a3, a4⟩ := between_field h1
    refine ⟨⟨45, by norm_num, t, b, he, by linarith, a2, by linarith, a4⟩, fun p hp => ?_, hu⟩
    obtain ⟨t, b, he, h3, h4⟩ := amount_positive (h2 p hp)
    exact ⟨t, b, he, h3.le, h4.le⟩
  | matlock s =>
    obtain ⟨h1, h2, h3, -⟩ := h
    obtain ⟨t, b, he, h4, h5⟩ := amount_positive h1
    exact ⟨⟨t, b, he, h4.le, h5.le⟩, amount_positive h2, by linarith [h3.1], hu⟩
  | rock s =>
    obtain ⟨h1, h2, -, h3, h4, -⟩ := h
    obtain ⟨t, b, he, h5, h6⟩ := amount_positive h2
    exact ⟨amount_positive h1, ⟨t, b, he, h5.le, h6.le⟩, by linarith [h3.1], h4, hu⟩

/-- **C112, axial models.** Accepted axial models have a friction and an end bearing at every depth of their layer,
if the friction angle of sand is less than a right angle. -/
theorem C112_axial {height : ℝ} (hh : 0 < height) {m : AxialModel} (h : OpenPile.Accept.axial m) (ha : Acute m) :
    Capacity.Sound height m := by
  cases m with
  | clay m =>
    obtain ⟨h1, -, h2, -, h3, -, h4, h5⟩ := h
    refine ⟨fun d hd hdh => ?_, h2, h5.1, by linarith [h4.1], by linarith [h4.2], h3⟩
    obtain ⟨t, b, v, -, hv, hp, -⟩ := C112_amount h1 hd hdh hh
    exact ⟨v, hv, hp⟩
  | sand m =>
    obtain ⟨h1, h2, h3, -, h4, -, -, h5⟩ := h
    refine ⟨fun d hd hdh => ?_, by linarith [h2.1], h3, h5.1, h4⟩
    obtain ⟨t, b, he⟩ := field_numbers h1
    obtain ⟨hi, hhi, a1, a2, a3, a4⟩ : ∃ hi, hi < 90 ∧ 0 ≤ t ∧ 0 ≤ b ∧ t ≤ hi ∧ b ≤ hi := by
      cases hδ : m.delta with
      | scalar x =>
        rw [hδ] at he h1
        cases he
        exact ⟨t, ha t hδ, h1.le, h1.le, le_rfl, le_rfl⟩
      | list l =>
        rw [hδ] at he h1
        refine ⟨45, by norm_num, ?_⟩
        have h6 : ∀ x ∈ l, range 0 45 x := h1.2.2
        cases he with
        | single =>
          have := h6 t (by simp)
          exact ⟨this.1, this.1, this.2, this.2⟩
        | pair =>
          have e1 := h6 t (by simp)
          have e2 := h6 b (by simp)
          exact ⟨e1.1, e2.1, e1.2, e2.2⟩
      | func f => rw [hδ] at h1; cases h1
      | object f => rw [hδ] at h1; cases h1
    have := between hd hdh hh a1 a2 a3 a4
    exact ⟨_, layered_ends he hh, this.1, this.2.trans_lt hhi⟩

/-- **C112, a Model of accepted soil models can be created.** Partial: see C64 for the restrictions on pile, layers and
levels; PISA and custom models, functions of the depth and large friction angles as in `Usable` and `Acute`. -/
theorem C112_model_partial {p : Pile.Pile ℝ} {sp : SoilProfile} {x2mesh : List ℝ} {c top tipz : ℝ}
    (h : Weight.Setup p sp.geometry x2mesh c top tipz) (w : Switches) {table : List (ℝ × Pile.Section ℝ)}
    (htab : Model.SortedRows p table) {env : Draws} (henv : GoodDraws env) (henv' : GoodTip env) (henv'' : GoodLateral env)
    (hlay : ∀ l ∈ sp.layers, l.bottom < l.top)
    (hax : ∀ l ∈ sp.layers, ∀ m, l.axial = some m → OpenPile.Accept.axial m ∧ Acute m)
    (hlat : ∀ l ∈ sp.layers, ∀ m, l.lateral = some m → OpenPile.Accept.lateral m ∧
      ∀ s ∈ p.sections, Usable s.diameter (sp.topElevation - tipz) m) :
    ∃ A, modelSprings p sp x2mesh c w table env = some A :=
  C64_model_partial h w htab henv henv' henv''
    (fun l hl m hm => C112_axial (sub_pos.2 (hlay l hl)) (hax l hl m hm).1 (hax l hl m hm).2)
    (fun l hl m hm s hs => C112_lateral (hlat l hl m hm).1 ((hlat l hl m hm).2 s hs))

/-- Accepted axial models meet the hypothesis of C111. -/
theorem C112_uplift {sp : SoilProfile} (h : ∀ l ∈ sp.layers, ∀ m, l.axial = some m → OpenPile.Accept.axial m) :
    Uplift.WPos sp := by
  intro l hl
  constructor
  · intro a ha
    exact (h l hl _ ha).2.2.2.2.2.1
  · intro a ha
    exact (h l hl _ ha).2.2.2.2.2.1

/-! ### warnings -/

/-- A multiplier given as a function is negative nowhere. -/
def Tame (m : Mult) : Prop := ∀ f, m = .func f → ∀ X v, 0 ≤ X → f X = some v → 0 ≤ v

/-- What remains to be asked of an accepted model for springs without negative values: functions of the depth that are
not negative, PISA models within the range of the project, Dunkirk sand up to 100 %, functions of custom models with values
in the ranges that the class sets for numbers. -/
def Quiet (D L : ℝ) : SoilModel.Model → Prop
  | .pisaClay s => Slender D L ∧ Tame s.p ∧ Tame s.y ∧ Tame s.m ∧ Tame s.t
  | .dunkirk s => Slender D L ∧ Below s.Dr 100 ∧ Tame s.p ∧ Tame s.y ∧ Tame s.m ∧ Tame s.t
  | .custom s => (∀ p, s.Su = some p ∨ p = s.G0 ∨ (∃ c ∈ [s.pyC, s.mtC, s.hbC, s.mbC], p ∈ [c.X, c.Y]) →
      Given (fun v => 0 < v) p) ∧ (∀ c ∈ [s.pyC, s.mtC, s.hbC, s.mbC], Given (fun v => 0 ≤ v ∧ v < 1) c.n) ∧
      Tame s.p ∧ Tame s.y ∧ Tame s.m ∧ Tame s.t
  | .apiSand s => Tame s.p ∧ Tame s.y
  | .matlock s => Tame s.p ∧ Tame s.y
  | .rock s => Tame s.p ∧ Tame s.y

theorem tame_nonneg {m : Mult} (h : mult nonneg m) (ht : Tame m) : Spec.Usual.Multiplier m := by
  cases m with
  | num x => exact h
  | func f => exact ht f rfl

theorem tame_positive {m : Mult} (h : mult positive m) (ht : Tame m) : Spec.Usual.Multiplier m := by
  cases m with
  | num x => exact le_of_lt h
  | func f => exact ht f rfl

theorem tame_all {p y m t : Mult} (h : OpenPile.Accept.mults p y m t) (ht : Tame p ∧ Tame y ∧ Tame m ∧ Tame t) :
    Spec.Usual.Multiplier p ∧ Spec.Usual.Multiplier y ∧ Spec.Usual.Multiplier m ∧ Spec.Usual.Multiplier t :=
  ⟨tame_nonneg h.1 ht.1, tame_positive h.2.1 ht.2.1, tame_nonneg h.2.2.1 ht.2.2.1, tame_positive h.2.2.2 ht.2.2.2⟩

theorem shape_accepted {c : Conics} (h : OpenPile.Accept.conics c) (hn : ∀ p ∈ [c.X, c.Y], Given (fun v => 0 < v) p)
    (hs' : Given (fun v => 0 ≤ v ∧ v < 1) c.n) : Spec.Usual.Shape c := by
  obtain ⟨hX, hs, -, hY⟩ := h
  refine ⟨custom_positive hX (hn _ (by simp)), ?_, custom_positive hY (hn _ (by simp))⟩
  rcases hs' with ⟨t, b, he⟩ | hs'
  · obtain ⟨⟨h1, h2⟩, h3, h4⟩ := field_same hs he
    refine custom_ends he fun w h0 h1' => ⟨?_, ?_⟩
    · nlinarith [mul_nonneg h3 h0, mul_nonneg h1 (sub_nonneg.2 h1')]
    · rcases h0.eq_or_lt with rfl | hw
      · simpa using h2
      · nlinarith [mul_pos (sub_pos.2 h4) hw, mul_nonneg (sub_pos.2 h2).le (sub_nonneg.2 h1')]
  · exact custom_proper hs'

theorem custom_mono {P Q : ℝ → Prop} (hPQ : ∀ v, P v → Q v) {p : Param ℝ} (h : Custom p P) : Custom p Q := by
  cases p with
  | func f =>
    intro X hX
    obtain ⟨v, hv, hp⟩ := h X hX
    exact ⟨v, hv, hPQ v hp⟩
  | scalar x =>
    obtain ⟨t, b, he, h⟩ := h
    exact ⟨t, b, he, fun w h0 h1 => hPQ _ (h w h0 h1)⟩
  | list l =>
    obtain ⟨t, b, he, h⟩ := h
    exact ⟨t, b, he, fun w h0 h1 => hPQ _ (h w h0 h1)⟩
  | object f =>
    obtain ⟨t, b, he, h⟩ := h
    exact ⟨t, b, he, fun w h0 h1 => hPQ _ (h w h0 h1)⟩

/-- **C112, ranges.** Accepted lateral models have parameters in the usual ranges of C87. -/
theorem C112_usual {D L : ℝ} {m : SoilModel.Model} (h : OpenPile.Accept.lateral m) (hq : Quiet D L m) :
    Spec.Usual.Lateral D L m := by
  cases m with
  | pisaClay s =>
    obtain ⟨h1, h2, h3⟩ := h
    obtain ⟨t, b, he, p1, p2⟩ := amount_positive h1
    exact ⟨hq.1, ⟨t, b, he, p1.le, p2.le⟩, amount_positive h2, tame_all h3 hq.2⟩
  | dunkirk s =>
    obtain ⟨h1, h2, h3⟩ := h
    obtain ⟨u1, ⟨t, b, he, ht, hb⟩, u2⟩ := hq
    obtain ⟨p1, p2⟩ := field_same h1 he
    exact ⟨u1, ⟨t, b, he, p1.le, ht, p2.le, hb⟩, amount_positive h2, tame_all h3 u2⟩
  | custom s =>
    obtain ⟨h1, h2, h3, h4, h5, h6, h7⟩ := h
    obtain ⟨u1, u2, u3⟩ := hq
    have hc : ∀ c ∈ [s.pyC, s.mtC, s.hbC, s.mbC], OpenPile.Accept.conics c → Spec.Usual.Shape c := fun c hc h =>
      shape_accepted h (fun p hp => u1 p (Or.inr (Or.inr ⟨c, hc, hp⟩))) (u2 c hc)
    exact ⟨fun p hp => custom_mono (fun _ h => le_of_lt h) (custom_positive (h1 p hp) (u1 p (Or.inl hp))),
      custom_positive h2 (u1 _ (Or.inr (Or.inl rfl))), hc _ (by simp) h3, hc _ (by simp) h4, hc _ (by simp) h5,
      hc _ (by simp) h6, tame_all h7 u3⟩
  | apiSand s =>
    obtain ⟨h1, h2, h3, h4⟩ := h
    obtain ⟨t, b, he, a1, a2, a3, a4⟩ := between_field h1
    refine ⟨⟨45, by norm_num, t, b, he, by linarith, a2, by linarith, a4⟩, fun p hp => ?_, tame_nonneg h3 hq.1,
      tame_positive h4 hq.2⟩
    obtain ⟨t, b, he, h3, h4⟩ := amount_positive (h2 p hp)
    exact ⟨t, b, he, h3.le, h4.le⟩
  | matlock s =>
    obtain ⟨h1, h2, h3, h6, h7⟩ := h
    obtain ⟨t, b, he, h4, h5⟩ := amount_positive h1
    exact ⟨⟨t, b, he, h4.le, h5.le⟩, amount_positive h2, by linarith [h3.1], tame_nonneg h6 hq.1, tame_positive h7 hq.2⟩
  | rock s =>
    obtain ⟨h1, h2, -, h3, h4, h7, h8⟩ := h
    obtain ⟨t, b, he, h5, h6⟩ := amount_positive h2
    exact ⟨amount_positive h1, ⟨t, b, he, h5.le, h6.le⟩, by linarith [h3.1], h4, tame_nonneg h7 hq.1, tame_positive h8 hq.2⟩

/-- **C112, no warnings.** A Model of accepted lateral models prints no warning about negative springs.  Partial: as in
C87 and `Quiet`. -/
theorem C112_silent_partial {p : Pile.Pile ℝ} {sp : SoilProfile} {x2mesh : List ℝ} {c top tipz : ℝ}
    (h : Weight.Setup p sp.geometry x2mesh c top tipz) (w : Switches) {table : List (ℝ × Pile.Section ℝ)}
    (htab : Model.SortedRows p table) {env : Draws} (henv : ∀ z j b, Lateral.Draws 15 (env.py z j b).draws)
    (hlat : ∀ l ∈ sp.layers, ∀ m, l.lateral = some m → OpenPile.Accept.lateral m ∧
      ∀ s ∈ p.sections, Quiet s.diameter (sp.topElevation - tipz) m) {v : List Warning}
    (hv : modelWarnings p sp x2mesh c w table env = some v) : v = [] :=
  Warnings.C87_silent_partial h w htab henv
    (fun l hl m hm s hs => C112_usual (hlat l hl m hm).1 ((hlat l hl m hm).2 s hs)) hv

/-! ### what is accepted although it cannot be used -/

/-- **C112 is violated by the friction angle.** One number is accepted whatever its size (a list is limited to 45
degrees); between a right angle and two, the unit friction of stressed sand is negative. -/
theorem C112_violated_angle (m : SandAxial) (t z : Mult) (h : OpenPile.Accept.sandAxial m t z) (δ : ℝ) (h90 : 90 < δ)
    (h180 : δ < 180) :
    OpenPile.Accept.sandAxial { m with delta := .scalar δ } t z ∧
      (¬ OpenPile.Accept.sandAxial { m with delta := .list [δ] } t z) ∧
      ∀ sig depth height, 0 < sig → 0 < height →
        ∃ f, ({ m with delta := .scalar δ } : SandAxial).unitShaftFriction sig depth height = some f ∧ f < 0 := by
  have hK := h.2.1.1
  refine ⟨⟨by show (0 : ℝ) < δ; linarith, h.2⟩, fun h' => ?_, fun sig depth height hs hh => ?_⟩
  · have := (h'.1.2.2 δ (by simp)).2
    linarith
  · obtain ⟨f, hf⟩ := Friction.C35_sand_total sig δ m.K
    refine ⟨f, ?_, ?_⟩
    · have e : layered (.scalar δ : Param ℝ) depth height = some δ := by
        simp [layered, topBottom, hh.ne']
      simp only [SandAxial.unitShaftFriction, e, Option.bind_eq_bind, Option.bind_some]
      exact hf
    · obtain ⟨lim, -, rfl⟩ := (Friction.C35_sand_law _ _ _ _).1 hf
      refine (min_le_right _ _).trans_lt ?_
      have htan : Real.tan (δ * (Real.pi / 180)) < 0 := by
        have h1 : Real.tan (δ * (Real.pi / 180) - Real.pi) < 0 := by
          apply Real.tan_neg_of_neg_of_pi_div_two_lt
          · nlinarith [Real.pi_pos]
          · nlinarith [Real.pi_pos]
        rwa [Real.tan_sub_pi] at h1
      have : 0 < m.K * sig := mul_pos (by linarith) hs
      nlinarith

/-- **C112 is violated by functions as axial multipliers.** They are accepted, and the t-z springs of the layer raise an
exception. -/
theorem C112_violated_function (m : ClayAxial) (t z : Mult) (f : ℝ → Option ℝ)
    (h : OpenPile.Accept.axialObj (.clay m t z)) :
    OpenPile.Accept.axialObj (.clay m (.func f) z) ∧
      ∀ cin cout sig height depth D len draws argsort,
        (Describe.AxialObj.clay m (.func f) z).tz cin cout sig height depth D len draws argsort = none :=
  ⟨⟨h.1, h.2.1, trivial, h.2.2.2⟩, fun _ _ _ _ _ _ _ _ _ => rfl⟩

/-- **C112 is violated by the relative density.** Any positive number is accepted; from 158.62 % on, the p-y springs of
stressed Dunkirk sand lie at negative displacements. -/
theorem C112_violated_density (s : Dunkirk) (h : OpenPile.Accept.lateral (.dunkirk s)) (Dr : ℝ) (hDr : 15862 / 100 ≤ Dr) :
    OpenPile.Accept.lateral (.dunkirk { s with Dr := .scalar Dr }) ∧
      ∀ sig X G0 D L len l, 0 < sig → 0 < G0 → 0 < D → pyDunkirk sig X Dr G0 D L len = some l →
        ∃ q, l.getLast? = some q ∧ q.1 < 0 := by
  refine ⟨⟨by show (0 : ℝ) < Dr; linarith, h.2⟩, fun sig X G0 D L len l hs hG hD hl => ?_⟩
  unfold pyDunkirk at hl
  simp only at hl
  split_ifs at hl
  unfold scaledConic at hl
  rw [Option.map_eq_some_iff] at hl
  obtain ⟨l', hl', rfl⟩ := hl
  obtain ⟨-, -, hm, -⟩ := Conic.conic_points hl'
  have h1 : (l'.map Prod.fst).getLast? = some (11 / 10 * (1461 / 10 - 9211 / 100 * (Dr / 100))) := by
    rw [hm, conicX, List.getLast?_append, List.getLast?_singleton]
    rfl
  rw [List.getLast?_map, Option.map_eq_some_iff] at h1
  obtain ⟨q, hq, e⟩ := h1
  refine ⟨_, by rw [scale, List.getLast?_map, hq]; rfl, ?_⟩
  simp only [e]
  apply mul_neg_of_neg_of_pos
  · linarith
  · positivity

/-- **C112 is violated by custom curves.** With a shape of 12/13 and an initial stiffness of 1.2 times the secant
stiffness, a custom model is accepted, whatever the ultimate point, and has no p-y spring at any depth: the conic divides
zero by zero. -/
theorem C112_violated_shape (s : SoilModel.Custom) (h : OpenPile.Accept.lateral (.custom s)) {xu yu : ℝ} (hx : 1 / 90 ≤ xu)
    (hy : 0 < yu) :
    OpenPile.Accept.lateral (.custom { s with pyC := ⟨.scalar (12 / 10 * (yu / xu)), .scalar (12 / 13), .scalar xu, .scalar yu⟩ }) ∧
      ∀ a, ({ s with pyC := ⟨.scalar (12 / 10 * (yu / xu)), .scalar (12 / 13), .scalar xu, .scalar yu⟩ } :
        SoilModel.Custom).py a = none := by
  have hx0 : 0 < xu := by linarith
  refine ⟨⟨h.1, h.2.1, ⟨hx0, ⟨by norm_num, by norm_num⟩, ?_, hy⟩, h.2.2.2⟩, fun a => ?_⟩
  · show 0 < 12 / 10 * (yu / xu)
    positivity
  · have hnone : ∀ sx sy, scaledConic xu (12 / 13) (12 / 10 * (yu / xu)) yu sx sy a.len = none := by
      intro sx sy
      unfold scaledConic
      rw [Conic.C28_violated_division hx hy]
      rfl
    rw [Option.eq_none_iff_forall_not_mem]
    intro c hc
    have hc := Warnings.guard_some hc
    simp only [Custom.pyCurve, Conics.at, valueAt, Option.bind_eq_bind, Option.bind_eq_some_iff, Option.pure_def] at hc
    obtain ⟨l, ⟨q, ⟨x1, e1, n1, e2, k1, e3, y1, e4, e5⟩, G, -, hl⟩, -⟩ := hc
    have hs : ∀ {v w : ℝ}, layered (.scalar v : Param ℝ) a.depth a.height = some w → w = v := by
      intro v w hw
      simp only [layered, topBottom, Option.bind_eq_bind, Option.bind_some] at hw
      split_ifs at hw
      simpa using hw.symm
    rw [hs e1, hs e2, hs e3, hs e4, Option.some.injEq] at e5
    subst e5
    simp only at hl
    cases hSu : s.Su with
    | none =>
      simp only [hSu, pyCustomSand, hnone] at hl
      split_ifs at hl
    | some p =>
      simp only [hSu, pyCustomClay, hnone, Option.bind_eq_some_iff] at hl
      obtain ⟨v, -, hl⟩ := hl
      split_ifs at hl

/-- **C64 and C112 are violated by very dense sand.** A pile of 1.979 m diameter, embedded 10 m in Dunkirk sand of 100 %
relative density: the p-y curve 6 m below ground divides zero by zero, whatever stress and modulus. -/
theorem C64_violated_dense : ∃ D : ℝ, 1979 / 1000 < D ∧ D < 198 / 100 ∧ Slender D 10 ∧
    ∀ sig G0, pyDunkirk sig 6 100 G0 D 10 15 = none := by
  refine ⟨156609165531 / 79132866866, by norm_num, by norm_num, ⟨by norm_num, by norm_num⟩, fun sig G0 => ?_⟩
  unfold pyDunkirk
  simp only
  by_cases hG : G0 = 0
  · rw [if_pos (Or.inr (Or.inr hG))]
  · rw [if_neg (by rintro (h | h | h) <;> first | exact hG h | norm_num at h)]
    unfold scaledConic
    rw [Option.map_eq_none_iff, ← Option.not_isSome_iff_eq_none]
    have e1 : (1461 / 10 - 9211 / 100 * (100 / 100) : ℝ) = 5399 / 100 := by norm_num
    have e2 : (917 / 1000 + 6193 / 100000 * (100 / 100) : ℝ) = 97893 / 100000 := by norm_num
    have e3 : (8731 / 1000 - 6982 / 10000 * (100 / 100) + -9178 / 10000 * 6 / (156609165531 / 79132866866) : ℝ)
        = 7465689998 / 1421961625 := by norm_num
    have e4 : (3667 / 10000 + 2589 / 100 * (100 / 100) + (3375 / 10000 - 89 / 10 * (100 / 100)) * 6 / 10 : ℝ)
        = 26399 / 1250 := by norm_num
    rw [e1, e2, e3, e4, Conic.C28_defined_partial (by norm_num) (by norm_num) (by norm_num) (by norm_num)]
    rintro ⟨-, h⟩
    have hm : (13 / 45 * (5399 / 100) : ℝ) ∈ conicX (5399 / 100) (max 8 15) := by
      unfold conicX linspace
      rw [if_neg (by norm_num)]
      refine List.mem_append.2 (Or.inl (List.mem_append.2 (Or.inr (List.mem_map.2 ⟨1, by simp, ?_⟩))))
      norm_num
    have hk : max (26399 / 1250 / (5399 / 100)) (7465689998 / 1421961625 : ℝ) = 7465689998 / 1421961625 :=
      max_eq_right (by norm_num)
    have := h _ hm (by norm_num)
    rw [hk] at this
    have := this (by norm_num)
    norm_num at this

/-! ### cases that meet the hypotheses -/

/-- The tube of C63 in clay with moment-rotation springs: all fields accepted, the Model is created whatever the
switches. -/
example (w : Switches) : ∃ A, modelSprings Creation.tube (Creation.soil (.matlock (Creation.clay true))) [] 1 w
    (Model.stableRows Creation.tube) Props.Assemble.drawsExample = some A := by
  refine C112_model_partial (Assemble.setup_example _ _) w ⟨Py.sortedBy_perm _ _, Py.sortedBy_pairwise _ _⟩
    Capacity.good_draws.1 Capacity.good_draws.2 Capacity.good_lateral ?_ ?_ ?_
  · intro l hl
    simp only [List.mem_singleton] at hl
    subst hl
    norm_num
  · intro l hl m hm
    simp only [List.mem_singleton] at hl
    subst hl
    cases hm
    refine ⟨⟨?_, ?_, ?_, ?_, ?_, ?_, ?_, ?_⟩, trivial⟩ <;>
      norm_num [Props.Assemble.axialExample, amount, field, mult, OpenPile.Accept.positive, nonneg, range]
  · intro l hl m hm
    simp only [List.mem_singleton] at hl
    subst hl
    cases hm
    refine ⟨⟨?_, ?_, ?_, ?_, ?_⟩, fun s hs => ⟨trivial, trivial⟩⟩ <;>
      norm_num [Creation.clay, amount, field, mult, OpenPile.Accept.positive, nonneg, range]

/-- Sand with a friction angle of 120 degrees. -/
example : ∃ f, (⟨.scalar 120, 8 / 10, .none, 1, 1, 1, 1, 1, 1⟩ : SandAxial).unitShaftFriction 100 1 5 = some f ∧ f < 0 :=
  (C112_violated_angle ⟨.scalar 25, 8 / 10, .none, 1, 1, 1, 1, 1, 1⟩ (.num 1) (.num 1)
    ⟨by norm_num [field, OpenPile.Accept.positive], by norm_num [range], by norm_num [mult, nonneg],
      by norm_num [mult, OpenPile.Accept.positive], by norm_num [nonneg], by norm_num [OpenPile.Accept.positive],
      by norm_num [range], by norm_num [range]⟩ 120 (by norm_num) (by norm_num)).2.2 100 1 5 (by norm_num) (by norm_num)

/-- A custom sand that is accepted. -/
example : OpenPile.Accept.lateral (.custom ⟨none, .scalar 50000, ⟨.scalar 10, .scalar (9 / 10), .scalar 100, .scalar 20⟩,
    ⟨.scalar 20, .scalar 0, .scalar (1 / 10), .scalar (2 / 10)⟩, ⟨.scalar 3, .list [1 / 2], .scalar 1, .scalar 1⟩,
    ⟨.scalar 1, .list [1 / 2, 3 / 4], .scalar 50, .func fun _ => none⟩, .num 1, .num 1, .num 1, .num 1⟩) := by
  refine ⟨(fun p hp => by cases hp), ?_, ?_, ?_, ?_, ?_, ?_⟩ <;>
    norm_num [OpenPile.Accept.conics, field, OpenPile.Accept.positive, shape, OpenPile.Accept.mults, mult, nonneg]

/-- Dunkirk sand of 158.7 %: the curve exists. -/
example : ∃ l q, pyDunkirk 100 1 (1587 / 10) 50000 2 10 15 = some l ∧ l.getLast? = some q ∧ q.1 < 0 := by
  have hc : ∃ l, pyDunkirk 100 1 (1587 / 10) 50000 2 10 15 = some l := by
    have hx : (1461 / 10 - 9211 / 100 * (1587 / 10 / 100) : ℝ) < 0 := by norm_num
    have hx' : (-8 / 100 : ℝ) < 1461 / 10 - 9211 / 100 * (1587 / 10 / 100) := by norm_num
    rw [← Option.isSome_iff_exists]
    unfold pyDunkirk scaledConic
    simp only
    rw [if_neg (by norm_num), Option.isSome_map]
    generalize (1461 / 10 - 9211 / 100 * (1587 / 10 / 100) : ℝ) = xu at hx hx'
    unfold conic
    rw [if_neg (by rintro (h | h); · exact hx.ne h
                   · simp at h)]
    have hall : ∀ x ∈ conicX xu (max 8 15), xu ≤ x ∨ |x - xu| < 1 / 100 := by
      intro x hx1
      simp only [conicX, List.mem_append, List.mem_cons, List.not_mem_nil, or_false] at hx1
      rcases hx1 with (h | h) | h
      · left
        rcases h with rfl | rfl | rfl | rfl <;> linarith
      · left
        unfold linspace at h
        rw [if_neg (by norm_num), List.mem_map] at h
        obtain ⟨i, hi, rfl⟩ := h
        have hi' : (i : ℝ) ≤ 9 := by
          have := List.mem_range.1 hi
          norm_num at this
          exact_mod_cast Nat.le_of_lt_succ this
        norm_num
        nlinarith
      · right
        rw [h, abs_lt]
        constructor <;> linarith
    simp only
    rw [Conic.mapM_isSome]
    intro x hx1
    rw [Option.isSome_map]
    unfold conicY
    by_cases h2 : |x - xu| < 1 / 100
    · rw [if_pos h2]; rfl
    · rw [if_neg h2, if_neg (not_lt.2 ((hall x hx1).resolve_right h2))]; rfl
  obtain ⟨l, hl⟩ := hc
  obtain ⟨q, h⟩ := (C112_violated_density ⟨.scalar 75, .scalar 50000, .num 1, .num 1, .num 1, .num 1⟩
    ⟨by norm_num [amount, field, OpenPile.Accept.positive], by norm_num [amount, field, OpenPile.Accept.positive],
      by norm_num [OpenPile.Accept.mults, mult, OpenPile.Accept.positive, nonneg]⟩ (1587 / 10) (by norm_num)).2
    100 1 50000 2 10 15 l (by norm_num) (by norm_num) (by norm_num) hl
  exact ⟨l, q, hl, h⟩

end OpenPile.Props.Accept

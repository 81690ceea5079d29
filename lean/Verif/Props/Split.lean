/-
C91: cutting a soil layer in two changes nothing.
-/
import Verif.Props.Order
import Verif.Props.Reproducible
import Verif.Model.Tables

namespace OpenPile.Props.Split
open OpenPile OpenPile.Params OpenPile.SoilModel OpenPile.Assemble OpenPile.Props.Assemble OpenPile.Axial
open OpenPile.Analysis OpenPile.SoilAnalysis

/-! ## Specification: the two halves of a layer -/

/-- A parameter over the part of a layer above the cut: two values become the upper one and the one at the cut (at
the fraction `t` of the height); anything else stays. -/
def above (t : ℝ) : Param ℝ → Param ℝ
  | .list [x, y] => .list [x, x + (y - x) * t]
  | p => p

/-- The same over the part below the cut. -/
def below (t : ℝ) : Param ℝ → Param ℝ
  | .list [x, y] => .list [x + (y - x) * t, y]
  | p => p

/-- A lateral model with other parameters. -/
def mapModel (f : Param ℝ → Param ℝ) : SoilModel.Model → SoilModel.Model
  | .pisaClay s => .pisaClay { s with Su := f s.Su, G0 := f s.G0 }
  | .dunkirk s => .dunkirk { s with Dr := f s.Dr, G0 := f s.G0 }
  | .custom s => .custom { s with
      Su := s.Su.map f, G0 := f s.G0
      pyC := ⟨f s.pyC.k, f s.pyC.n, f s.pyC.X, f s.pyC.Y⟩, mtC := ⟨f s.mtC.k, f s.mtC.n, f s.mtC.X, f s.mtC.Y⟩
      hbC := ⟨f s.hbC.k, f s.hbC.n, f s.hbC.X, f s.hbC.Y⟩, mbC := ⟨f s.mbC.k, f s.mbC.n, f s.mbC.X, f s.mbC.Y⟩ }
  | .apiSand s => .apiSand { s with phi := f s.phi, modulus := s.modulus.map f }
  | .matlock s => .matlock { s with Su := f s.Su, eps50 := f s.eps50 }
  | .rock s => .rock { s with Ei := f s.Ei, qu := f s.qu }

/-- An axial model with other parameters. -/
def mapAxial (f : Param ℝ → Param ℝ) : AxialModel → AxialModel
  | .clay m => .clay { m with Su := f m.Su }
  | .sand m => .sand { m with delta := f m.delta }

/-- The fraction of the height of a layer above the elevation `s`. -/
noncomputable def fraction (s : ℝ) (l : SoilLayer) : ℝ := (l.top - s) / (l.top - l.bottom)

/-- The part of a layer above the elevation `s`. -/
noncomputable def upper (s : ℝ) (l : SoilLayer) : SoilLayer :=
  ⟨⟨l.top, s, l.weight⟩, l.lateral.map (mapModel (above (fraction s l))), l.axial.map (mapAxial (above (fraction s l)))⟩

/-- The part of a layer below the elevation `s`. -/
noncomputable def lower (s : ℝ) (l : SoilLayer) : SoilLayer :=
  ⟨⟨s, l.bottom, l.weight⟩, l.lateral.map (mapModel (below (fraction s l))), l.axial.map (mapAxial (below (fraction s l)))⟩

/-! ## Values of the parameters -/

theorem layered_above {t h d : ℝ} (p : Param ℝ) (hh : h ≠ 0) (ht : t ≠ 0) :
    layered (above t p) d (t * h) = layered p d h := by
  have hth : t * h ≠ 0 := mul_ne_zero ht hh
  match p with
  | .scalar x => simp [above, layered, topBottom, hh, ht]
  | .list [] => simp [above, layered, topBottom]
  | .list [x] => simp [above, layered, topBottom, hh, ht]
  | .list [x, y] =>
    simp only [above, layered, topBottom, Option.bind_eq_bind, Option.bind_some, if_neg hth, if_neg hh, Option.pure_def,
      Option.some.injEq]
    field_simp
    ring
  | .list (_ :: _ :: _ :: _) => simp [above, layered, topBottom]
  | .func f => simp [above, layered, topBottom]
  | .object f => simp [above, layered, topBottom]

theorem layered_below {t h d : ℝ} (p : Param ℝ) (hh : h ≠ 0) (ht : 1 - t ≠ 0) :
    layered (below t p) (d - t * h) ((1 - t) * h) = layered p d h := by
  have hth : (1 - t) * h ≠ 0 := mul_ne_zero ht hh
  match p with
  | .scalar x => simp [below, layered, topBottom, hh, ht]
  | .list [] => simp [below, layered, topBottom]
  | .list [x] => simp [below, layered, topBottom, hh, ht]
  | .list [x, y] =>
    simp only [below, layered, topBottom, Option.bind_eq_bind, Option.bind_some, if_neg hth, if_neg hh, Option.pure_def,
      Option.some.injEq]
    field_simp
    ring
  | .list (_ :: _ :: _ :: _) => simp [below, layered, topBottom]
  | .func f => simp [below, layered, topBottom]
  | .object f => simp [below, layered, topBottom]

/-- A change of parameters, of the depth below the top of the layer and of its height that keeps all values. -/
structure Keeps (f : Param ℝ → Param ℝ) (d h d' h' : ℝ) : Prop where
  inside : d ≤ h
  inside' : d' ≤ h'
  layered : ∀ p, layered (f p) d' h' = layered p d h
  func : ∀ g, f (.func g) = .func g
  notFunc : ∀ p g, f p = .func g → p = .func g

theorem Keeps.value {f : Param ℝ → Param ℝ} {d h d' h' : ℝ} (k : Keeps f d h d' h') (p : Param ℝ) (g : ℝ) :
    valueAt (f p) d' h' g = valueAt p d h g := by
  by_cases hp : ∃ q, p = .func q
  · obtain ⟨q, rfl⟩ := hp
    rw [k.func]
    rfl
  · have h1 : ∀ p : Param ℝ, (¬ ∃ q, p = .func q) → ∀ d h, valueAt p d h g = Params.layered p d h := by
      intro p hp d h
      cases p with
      | func q => exact absurd ⟨q, rfl⟩ hp
      | _ => rfl
    rw [h1 _ (fun ⟨q, hq⟩ => hp ⟨q, k.notFunc p q hq⟩), h1 _ hp, k.layered]

theorem above_keeps {t h d : ℝ} (hh : 0 < h) (ht : 0 < t) (ht1 : t < 1) (hd : d ≤ t * h) :
    Keeps (above t) d h d (t * h) where
  inside := hd.trans (by nlinarith)
  inside' := hd
  layered p := layered_above p hh.ne' ht.ne'
  func g := rfl
  notFunc p g hp := by
    match p with
    | .scalar x => cases hp
    | .list [] => cases hp
    | .list [x] => cases hp
    | .list [x, y] => cases hp
    | .list (_ :: _ :: _ :: _) => cases hp
    | .func f => exact hp
    | .object f => cases hp

theorem below_keeps {t h d : ℝ} (hh : 0 < h) (ht1 : t < 1) (hd : d ≤ h) :
    Keeps (below t) d h (d - t * h) ((1 - t) * h) where
  inside := hd
  inside' := by linarith
  layered p := layered_below p hh.ne' (by linarith)
  func g := rfl
  notFunc p g hp := by
    match p with
    | .scalar x => cases hp
    | .list [] => cases hp
    | .list [x] => cases hp
    | .list [x, y] => cases hp
    | .list (_ :: _ :: _ :: _) => cases hp
    | .func f => exact hp
    | .object f => cases hp

/-! ## Springs of the halves -/

theorem signature_map (f : Param ℝ → Param ℝ) (m : SoilModel.Model) : (mapModel f m).signature = m.signature := by
  cases m <;> rfl

theorem guard_in {α : Type} {a : Args} (h : a.depth ≤ a.height) (r : Option α) : SoilModel.guard a r = r := by
  unfold SoilModel.guard
  rw [if_neg (not_lt.2 h)]

section springs
variable {f : Param ℝ → Param ℝ} {d' h' : ℝ} {a : Args} (k : Keeps f a.depth a.height d' h')
include k

theorem at_map (c : Conics) : Conics.at ⟨f c.k, f c.n, f c.X, f c.Y⟩ { a with depth := d', height := h' } = c.at a := by
  simp only [Conics.at, k.value]

theorem spring_map (m : SoilModel.Model) (e : Env) :
    (mapModel f m).py { a with depth := d', height := h' } e = m.py a e ∧
    (mapModel f m).hb { a with depth := d', height := h' } = m.hb a ∧
    (mapModel f m).mt { a with depth := d', height := h' } e = m.mt a e ∧
    (mapModel f m).mb { a with depth := d', height := h' } = m.mb a := by
  have g1 : ∀ {α : Type} (r : Option α), SoilModel.guard { a with depth := d', height := h' } r = r :=
    fun r => guard_in k.inside' r
  have g2 : ∀ {α : Type} (r : Option α), SoilModel.guard a r = r := fun r => guard_in k.inside r
  cases m with
  | pisaClay s =>
    refine ⟨?_, ?_, ?_, ?_⟩ <;>
      simp only [mapModel, SoilModel.Model.py, SoilModel.Model.hb, SoilModel.Model.mt, SoilModel.Model.mb, PisaClay.py, PisaClay.hb,
        PisaClay.mt, PisaClay.mb, PisaClay.pyCurve, g1, g2, k.layered]
  | dunkirk s =>
    refine ⟨?_, ?_, ?_, ?_⟩ <;>
      simp only [mapModel, SoilModel.Model.py, SoilModel.Model.hb, SoilModel.Model.mt, SoilModel.Model.mb, Dunkirk.py, Dunkirk.hb,
        Dunkirk.mt, Dunkirk.mb, g1, g2, k.layered]
  | custom s =>
    cases hs : s.Su <;> refine ⟨?_, ?_, ?_, ?_⟩ <;>
      simp only [mapModel, SoilModel.Model.py, SoilModel.Model.hb, SoilModel.Model.mt, SoilModel.Model.mb, Custom.py, Custom.hb,
        Custom.mt, Custom.mb, Custom.pyCurve, g1, g2, at_map k, k.value, hs, Option.map_none, Option.map_some]
  | apiSand s =>
    have e1 : ∀ phi, ApiSand.subgrade { s with phi := f s.phi, modulus := s.modulus.map f } { a with depth := d', height := h' } phi =
        s.subgrade a phi := by
      intro phi
      cases hm : s.modulus <;> simp only [ApiSand.subgrade, hm, Option.map_none, Option.map_some, k.layered]
    have e2 : ApiSand.py { s with phi := f s.phi, modulus := s.modulus.map f } { a with depth := d', height := h' } = s.py a := by
      simp only [ApiSand.py, g1, g2, k.layered, e1]
    refine ⟨e2, rfl, ?_, rfl⟩
    simp only [mapModel, SoilModel.Model.mt, ApiSand.mt, g1, g2, k.layered, e2]
  | matlock s =>
    refine ⟨?_, rfl, ?_, rfl⟩ <;>
      simp only [mapModel, SoilModel.Model.py, SoilModel.Model.mt, MatlockClay.py, MatlockClay.mt, g1, g2, k.layered]
  | rock s =>
    refine ⟨?_, rfl, rfl, rfl⟩
    simp only [mapModel, SoilModel.Model.py, WeakRock.py, g1, g2, k.layered]

end springs

/-- `h` is a piece of the layer `l`, with parameters changed by `f` such that they keep their values over the piece. -/
structure Piece (f : Param ℝ → Param ℝ) (l h : SoilLayer) : Prop where
  top : h.top ≤ l.top
  bottom : l.bottom ≤ h.bottom
  lateral : h.lateral = l.lateral.map (mapModel f)
  axial : h.axial = l.axial.map (mapAxial f)
  keeps : ∀ z, h.bottom ≤ z → z ≤ h.top → Keeps f (l.top - z) (l.top - l.bottom) (h.top - z) (h.top - h.bottom)

theorem upper_piece {s : ℝ} {l : SoilLayer} (h1 : l.bottom < s) (h2 : s < l.top) :
    Piece (above (fraction s l)) l (upper s l) where
  top := le_rfl
  bottom := h1.le
  lateral := rfl
  axial := rfl
  keeps z hz _ := by
    have hh : 0 < l.top - l.bottom := by linarith
    have e : l.top - s = fraction s l * (l.top - l.bottom) := by
      unfold fraction
      rw [div_mul_cancel₀ _ hh.ne']
    have ht : 0 < fraction s l := div_pos (by linarith) hh
    have ht1 : fraction s l < 1 := (div_lt_one hh).2 (by linarith)
    have hz' : s ≤ z := hz
    have := above_keeps (t := fraction s l) hh ht ht1 (d := l.top - z) (by rw [← e]; linarith)
    rw [← e] at this
    exact this

theorem lower_piece {s : ℝ} {l : SoilLayer} (h1 : l.bottom < s) (h2 : s < l.top) :
    Piece (below (fraction s l)) l (lower s l) where
  top := h2.le
  bottom := le_rfl
  lateral := rfl
  axial := rfl
  keeps z hz _ := by
    have hh : 0 < l.top - l.bottom := by linarith
    have e : l.top - s = fraction s l * (l.top - l.bottom) := by
      unfold fraction
      rw [div_mul_cancel₀ _ hh.ne']
    have ht1 : fraction s l < 1 := (div_lt_one hh).2 (by linarith)
    have hz' : l.bottom ≤ z := hz
    have := below_keeps (t := fraction s l) hh ht1 (d := l.top - z) (by linarith)
    have e1 : l.top - z - fraction s l * (l.top - l.bottom) = s - z := by rw [← e]; ring
    have e2 : (1 - fraction s l) * (l.top - l.bottom) = s - l.bottom := by
      rw [sub_mul, ← e]; ring
    rw [e1, e2] at this
    exact this

section steps
variable {S T : Input} {L : List SoilLayer} (hT : T = { S with layers := L }) {f : Param ℝ → Param ℝ} {l h : SoilLayer}
  (hp : Piece f l h)

/-- The random numbers of a layer starting at `a` are those of one starting at `b`. -/
structure SameDraws (env : Draws) (a b : ℝ) : Prop where
  py : env.py a = env.py b
  mt : env.mt a = env.mt b
  tz : env.tz a = env.tz b
  qz : env.qz a = env.qz b

/-- The row lies in the layer. -/
structure Within (r : Row) (h : SoilLayer) : Prop where
  top : r.top ≤ h.top
  bottom : h.bottom ≤ r.bottom
  order : r.bottom < r.top

theorem Within.z {r : Row} (hw : Within r h) (b : Bool) : h.bottom ≤ r.z b ∧ r.z b ≤ h.top := by
  have := hw.top
  have := hw.bottom
  have := hw.order
  cases b <;> simp only [Row.z, Bool.false_eq_true, if_false, if_true] <;> constructor <;> linarith

include hT hp

theorem pyNode_piece {r : Row} (hw : Within r h) (m : SoilModel.Model) (b : Bool) (e : Env) :
    pyNode T h (mapModel f m) r b e = pyNode S l m r b e ∧ mtNode T h (mapModel f m) r b e = mtNode S l m r b e := by
  subst hT
  have k := hp.keeps (r.z b) (hw.z b).1 (hw.z b).2
  unfold pyNode mtNode nodeArgs
  cases r.sig b with
  | none => exact ⟨rfl, rfl⟩
  | some sig =>
    cases r.sec with
    | none => exact ⟨rfl, rfl⟩
    | some s =>
      have := spring_map (a := { sig := sig, X := |r.z b - S.ground|, height := l.top - l.bottom, depth := l.top - r.z b, D := s.width, L := S.ground - S.tip, belowWater := decide (r.z b ≤ S.water), ymax := 0, len := 15 }) k m e
      simp only [Option.bind_eq_bind, Option.bind_some, Option.pure_def]
      rw [this.1, this.2.2.1]
      exact ⟨rfl, rfl⟩

theorem tzNode_piece {r : Row} (hw : Within r h) (m : AxialModel) (b : Bool) (e : Env) :
    tzNode T h (mapAxial f m) r b e = tzNode S l m r b e := by
  subst hT
  have k := hp.keeps (r.z b) (hw.z b).1 (hw.z b).2
  unfold tzNode
  cases m <;> simp only [mapAxial, ClayAxial.tzSpring, SandAxial.tzSpring, k.layered]

theorem qzTip_piece (ht : tipIn S h = true) (m : AxialModel) (r : Row) (e : Env) :
    qzTip T h (mapAxial f m) r e = qzTip S l m r e := by
  subst hT
  rw [tipIn, decide_eq_true_eq] at ht
  have k := hp.keeps S.tip ht.2 ht.1
  unfold qzTip sigTip
  cases m <;> simp only [mapAxial, ClayAxial.qzSpring, SandAxial.qzSpring, k.layered]

theorem base_piece (ht : tipIn S h = true) (m : SoilModel.Model) (r : Row) :
    hbTip T h (mapModel f m) r = hbTip S l m r ∧ mbTip T h (mapModel f m) r = mbTip S l m r := by
  subst hT
  rw [tipIn, decide_eq_true_eq] at ht
  have k := hp.keeps S.tip ht.2 ht.1
  unfold hbTip mbTip baseArgs sigTip
  simp only
  cases S.rows.getLast?.bind (·.sigBottom) with
  | none => exact ⟨rfl, rfl⟩
  | some sig =>
    cases r.sec with
    | none => exact ⟨rfl, rfl⟩
    | some s =>
      have := fun e => spring_map (a := { sig := sig, X := S.ground - S.profileBottom, height := l.top - l.bottom, depth := l.top - S.tip, D := s.width, L := S.ground - S.tip, belowWater := decide (S.tip ≤ S.water), ymax := 0, len := 15 }) k m e
      have := this ⟨[], fun _ => 0, fun _ => []⟩
      simp only [Option.bind_eq_bind, Option.bind_some, Option.pure_def]
      rw [this.2.1, this.2.2.2]
      exact ⟨rfl, rfl⟩

omit hT in
theorem tipIn_piece (ht : tipIn S h = true) : tipIn S l = true := by
  rw [tipIn, decide_eq_true_eq] at *
  exact ⟨ht.1.trans hp.top, hp.bottom.trans ht.2⟩

variable {env : Draws} (hd : SameDraws env h.top l.top)
include hd

theorem cPy_piece {r : Row} (hw : Within r h) (b : Bool) (i : ℕ) : cPy T env b h r i = cPy S env b l r i := by
  unfold cPy
  rw [hp.lateral]
  cases l.lateral with
  | none => rfl
  | some m =>
    simp only [Option.map_some, signature_map, hd.py, (pyNode_piece hT hp hw m b _).1]
    subst hT
    rfl

theorem cMt_piece {r : Row} (hw : Within r h) (b : Bool) (i : ℕ) : cMt T env b h r i = cMt S env b l r i := by
  unfold cMt
  rw [hp.lateral]
  cases l.lateral with
  | none => rfl
  | some m =>
    simp only [Option.map_some, signature_map, hd.mt, (pyNode_piece hT hp hw m b _).2]
    subst hT
    rfl

theorem cTz_piece {r : Row} (hw : Within r h) (b : Bool) (i : ℕ) : cTz T env b h r i = cTz S env b l r i := by
  unfold cTz
  rw [hp.axial]
  cases l.axial with
  | none => rfl
  | some m =>
    simp only [Option.map_some, hd.tz, tzNode_piece hT hp hw m b _]
    subst hT
    rfl

theorem cQz_piece (ht : tipIn S h = true) (r : Row) (i : ℕ) : cQz T env h r i = cQz S env l r i := by
  unfold cQz
  rw [hp.axial]
  have e1 : tipIn T h = true := by subst hT; exact ht
  rw [e1, tipIn_piece hp ht]
  cases l.axial with
  | none => rfl
  | some m =>
    simp only [Option.map_some, hd.qz, qzTip_piece hT hp ht m]
    subst hT
    rfl

omit hd in
theorem cHb_piece (ht : tipIn S h = true) (r : Row) : cHb T h r = cHb S l r ∧ cMb T h r = cMb S l r := by
  unfold cHb cMb
  rw [hp.lateral]
  have e1 : tipIn T h = true := by subst hT; exact ht
  rw [e1, tipIn_piece hp ht]
  cases l.lateral with
  | none => exact ⟨rfl, rfl⟩
  | some m =>
    simp only [Option.map_some, signature_map, (base_piece hT hp ht m r).1, (base_piece hT hp ht m r).2]
    subst hT
    exact ⟨rfl, rfl⟩

end steps

section success
variable {S : Input} {env : Draws}

theorem bind_iff {α β : Type} {x : Option α} {g : α → Option β} (hg : ∀ s s', (g s).isSome = (g s').isSome) (s0 : α) :
    (x.bind g).isSome ↔ x.isSome ∧ (g s0).isSome := by
  cases x with
  | none => simp
  | some s => simp [hg s s0]

theorem if_iff {α : Type} (b : Bool) (x : Option α) (a : α) :
    (if b then x else some a).isSome ↔ (b = true → x.isSome) := by
  cases b <;> simp

theorem axial_iff (l : SoilLayer) (r : Row) (i : ℕ) (A : Arrays) :
    (axialStep S env l r i A).isSome ↔ ∀ m, l.axial = some m →
      (S.distributedAxial = true → ∀ b, (tzNode S l m r b (env.tz l.top i b)).isSome) ∧
      ((tipIn S l && S.baseAxial) = true → (qzTip S l m r (env.qz l.top i)).isSome) := by
  unfold axialStep
  cases l.axial with
  | none => simp
  | some m =>
    simp only [Option.some.injEq, forall_eq', Bool.forall_bool]
    cases S.distributedAxial <;> cases (tipIn S l && S.baseAxial) <;>
      simp only [Bool.false_eq_true, if_false, if_true, Option.pure_def, Option.bind_eq_bind,
        Option.bind_some] <;>
      cases tzNode S l m r false (env.tz l.top i false) <;>
      cases tzNode S l m r true (env.tz l.top i true) <;>
      cases qzTip S l m r (env.qz l.top i) <;> simp

theorem lateral_iff (l : SoilLayer) (r : Row) (i : ℕ) (A : Arrays) :
    (lateralStep S env l r i A).isSome ↔ ∀ m, l.lateral = some m →
      ((m.signature.1 && S.distributedLateral) = true → ∀ b, (pyNode S l m r b (env.py l.top i b)).isSome) ∧
      ((m.signature.2.2.1 && S.distributedMoment) = true → ∀ b, (mtNode S l m r b (env.mt l.top i b)).isSome) ∧
      ((tipIn S l && (m.signature.2.1 && S.baseShear)) = true → (hbTip S l m r).isSome) ∧
      ((tipIn S l && (m.signature.2.2.2 && S.baseMoment)) = true → (mbTip S l m r).isSome) := by
  unfold lateralStep
  cases l.lateral with
  | none => simp
  | some m =>
    simp only [Option.some.injEq, forall_eq']
    have s4 := mb_success (S := S) l m r
    have s3 : ∀ s s', ((hbStep S l m r s).bind (mbStep S l m r)).isSome = ((hbStep S l m r s').bind (mbStep S l m r)).isSome :=
      bind_success (hb_success l m r) s4
    have s2 : ∀ s s', ((mtStep S env l m r i s).bind fun A => (hbStep S l m r A).bind (mbStep S l m r)).isSome =
        ((mtStep S env l m r i s').bind fun A => (hbStep S l m r A).bind (mbStep S l m r)).isSome :=
      bind_success (mt_success l m r i) s3
    rw [show (do
        let A ← pyStep S env l m r i A
        let A ← mtStep S env l m r i A
        let A ← hbStep S l m r A
        mbStep S l m r A : Option Arrays) = (pyStep S env l m r i A).bind fun A => (mtStep S env l m r i A).bind fun A =>
          (hbStep S l m r A).bind (mbStep S l m r) from rfl, bind_iff s2 A, bind_iff s3 A, bind_iff s4 A]
    unfold pyStep mtStep hbStep mbStep
    rw [if_iff, if_iff, if_iff, if_iff]
    simp only [Bool.forall_bool]
    refine and_congr ?_ (and_congr ?_ (and_congr ?_ ?_)) <;> refine imp_congr_right fun _ => ?_
    · cases pyNode S l m r false (env.py l.top i false) <;> cases pyNode S l m r true (env.py l.top i true) <;> simp
    · cases mtNode S l m r false (env.mt l.top i false) <;> cases mtNode S l m r true (env.mt l.top i true) <;> simp
    · cases hbTip S l m r <;> simp
    · cases mbTip S l m r <;> simp

theorem step_iff (l : SoilLayer) (r : Row) (i : ℕ) (A : Arrays) :
    (step S env l A (r, i)).isSome ↔ (axialStep S env l r i A).isSome ∧ (lateralStep S env l r i A).isSome := by
  refine bind_iff (g := fun A => lateralStep S env l r i A) (fun s s' => ?_) A
  rw [Bool.eq_iff_iff, lateral_iff, lateral_iff]

theorem step_piece {T : Input} {L : List SoilLayer} (hT : T = { S with layers := L }) {f : Param ℝ → Param ℝ} {l h : SoilLayer}
    (hp : Piece f l h) (hd : SameDraws env h.top l.top) {r : Row} (hw : Within r h) (i : ℕ) (A : Arrays)
    (hs : (step S env l A (r, i)).isSome) : (step T env h A (r, i)).isSome := by
  rw [step_iff, axial_iff, lateral_iff] at hs ⊢
  have e1 : tipIn T h = tipIn S h := by subst hT; rfl
  have e2 : tipIn S h = true → tipIn S l = true := tipIn_piece hp
  have f1 : T.distributedAxial = S.distributedAxial := by subst hT; rfl
  have f2 : T.baseAxial = S.baseAxial := by subst hT; rfl
  have f3 : T.distributedLateral = S.distributedLateral := by subst hT; rfl
  have f4 : T.distributedMoment = S.distributedMoment := by subst hT; rfl
  have f5 : T.baseShear = S.baseShear := by subst hT; rfl
  have f6 : T.baseMoment = S.baseMoment := by subst hT; rfl
  obtain ⟨ha, hl⟩ := hs
  constructor
  · intro m' hm'
    rw [hp.axial, Option.map_eq_some_iff] at hm'
    obtain ⟨m, hm, rfl⟩ := hm'
    obtain ⟨h1, h2⟩ := ha m hm
    rw [e1, f1, f2]
    refine ⟨fun h3 b => ?_, fun h3 => ?_⟩
    · rw [tzNode_piece hT hp hw, hd.tz]
      exact h1 h3 b
    · rw [Bool.and_eq_true] at h3
      rw [qzTip_piece hT hp h3.1, hd.qz]
      exact h2 (by rw [e2 h3.1, h3.2]; rfl)
  · intro m' hm'
    rw [hp.lateral, Option.map_eq_some_iff] at hm'
    obtain ⟨m, hm, rfl⟩ := hm'
    obtain ⟨h1, h2, h3, h4⟩ := hl m hm
    rw [e1, f3, f4, f5, f6, signature_map]
    refine ⟨fun g b => ?_, fun g b => ?_, fun g => ?_, fun g => ?_⟩
    · rw [(pyNode_piece hT hp hw m b _).1, hd.py]
      exact h1 g b
    · rw [(pyNode_piece hT hp hw m b _).2, hd.mt]
      exact h2 g b
    · rw [Bool.and_eq_true] at g
      rw [(base_piece hT hp g.1 m r).1]
      exact h3 (by rw [e2 g.1, g.2]; rfl)
    · rw [Bool.and_eq_true] at g
      rw [(base_piece hT hp g.1 m r).2]
      exact h4 (by rw [e2 g.1, g.2]; rfl)

/-- Each element lies in the same kind of soil with the same values: both in no layer, or in one layer and a piece of it. -/
def Matches (S T : Input) (env : Draws) (r : Row) : Prop :=
  (owners S r = [] ∧ owners T r = []) ∨
    ∃ f l h, owners S r = [l] ∧ owners T r = [h] ∧ Piece f l h ∧ SameDraws env h.top l.top ∧ Within r h

theorem create_pieces {T : Input} {L : List SoilLayer} (hT : T = { S with layers := L })
    (hm : ∀ r ∈ S.rows, Matches S T env r) {r : Row} (ht : TipRow S r) {A : Arrays}
    (hA : createSprings S env = some A) : createSprings T env = some A := by
  obtain ⟨B, hB, rfl⟩ := create_some hA
  have hrows : T.rows = S.rows := by subst hT; rfl
  have hsucc : (fillArrays T env).isSome := by
    rw [fill_eq, foldlM_success _ body_success]
    rintro ⟨h, q, i⟩ hk
    obtain ⟨h1, h2⟩ := mem_calls.1 hk
    rw [hrows] at h1
    rcases hm q (List.mem_of_getElem? h1) with ⟨-, h0⟩ | ⟨f, l, h', g1, g2, g3, g4, g5⟩
    · rw [h0] at h2
      cases h2
    · rw [g2, List.mem_singleton] at h2
      subst h2
      refine step_piece hT g3 g4 g5 i _ ?_
      have : (fillArrays S env).isSome := by rw [hB]; rfl
      rw [fill_eq, foldlM_success _ body_success] at this
      exact this (l, q, i) (mem_calls.2 ⟨h1, by rw [g1]; exact List.mem_singleton.2 rfl⟩)
  obtain ⟨D, hD⟩ := Option.isSome_iff_exists.1 hsucc
  have htT : TipRow T r := by subst hT; exact ⟨ht.last, ht.tip, ht.lowest⟩
  have elt : ∀ (α : Type) (π : Arrays → α) (j : ℕ) (g g' : SoilLayer → Row → ℕ → Option α),
      (∀ l r i A A', step S env l A (r, i) = some A' → π A' = if j = i then (g l r i).getD (π A) else π A) →
      (∀ l r i A A', step T env l A (r, i) = some A' → π A' = if j = i then (g' l r i).getD (π A) else π A) →
      (∀ f l h r, Piece f l h → SameDraws env h.top l.top → Within r h → g' h r j = g l r j) → π D = π B := by
    intro α π j g g' h1 h2 h3
    cases hj : S.rows[j]? with
    | none =>
      have hno : ∀ (U : Input), U.rows = S.rows → ∀ (g : SoilLayer → Row → ℕ → Option α),
          (∀ l r i A A', step U env l A (r, i) = some A' → π A' = if j = i then (g l r i).getD (π A) else π A) →
          ∀ B, fillArrays U env = some B → π B = π Arrays.zero := by
        intro U hU g hg B hB
        rw [fill_eq] at hB
        refine never (c := fun k : Props.Assemble.Call => if j = k.2.2 then g k.1 k.2.1 k.2.2 else none) ?_ _ ?_ _ _ hB
        · intro s k s' hs
          rw [hg k.1 k.2.1 k.2.2 s s' hs]
          simp only
          split_ifs <;> rfl
        · rintro ⟨l, q, i⟩ hk
          simp only
          split_ifs with hji
          · subst hji
            have := (mem_calls.1 hk).1
            rw [hU, hj] at this
            cases this
          · rfl
      rw [hno S rfl g h1 B hB, hno T hrows g' h2 D hD]
    | some q =>
      obtain ⟨a1, a2⟩ := element_component π j g h1 hB hj
      obtain ⟨b1, b2⟩ := element_component π j g' h2 hD (by rw [hrows]; exact hj)
      rcases hm q (List.mem_of_getElem? hj) with ⟨e1, e2⟩ | ⟨f, l, h, e1, e2, e3, e4, e5⟩
      · rw [a2 (by simp [e1]), b2 (by simp [e2])]
      · have e6 := h3 f l h q e3 e4 e5
        cases hg : g l q j with
        | none =>
          rw [a2 (by rw [e1]; simp [hg]), b2 (by rw [e2]; simp [e6, hg])]
        | some v => rw [a1 l v e1 hg, b1 h v e2 (by rw [e6, hg])]
  have tip : ∀ (α : Type) (π : Arrays → α) (g g' : SoilLayer → Row → ℕ → Option α),
      (∀ l r i, tipIn S l = false → g l r i = none) → (∀ l r i, tipIn T l = false → g' l r i = none) →
      (∀ l r i A A', step S env l A (r, i) = some A' → π A' = (g l r i).getD (π A)) →
      (∀ l r i A A', step T env l A (r, i) = some A' → π A' = (g' l r i).getD (π A)) →
      (∀ l, (∀ r i, g l r i = none) ∨ ∀ r i, S.rows[i]? = some r → l ∈ owners S r → (g l r i).isSome) →
      (∀ f l h r i, Piece f l h → SameDraws env h.top l.top → tipIn S h = true → g' h r i = g l r i) → π D = π B := by
    intro α π g g' hg hg' h1 h2 h3 h4
    rcases hm r (List.mem_of_getLast? ht.last) with ⟨e1, e2⟩ | ⟨f, l, h, e1, e2, e3, e4, e5⟩
    · have hno : ∀ (U : Input), TipRow U r → owners U r = [] → ∀ (g : SoilLayer → Row → ℕ → Option α),
          (∀ l r i, tipIn U l = false → g l r i = none) →
          (∀ l r i A A', step U env l A (r, i) = some A' → π A' = (g l r i).getD (π A)) →
          ∀ B, fillArrays U env = some B → π B = π Arrays.zero := by
        intro U hU hU0 g hg0 hg B hB
        rw [fill_eq] at hB
        refine never (c := fun k : Props.Assemble.Call => g k.1 k.2.1 k.2.2) (fun s k s' hs => hg _ _ _ _ _ hs) _ ?_ _ _ hB
        rintro ⟨l, q, i⟩ hk
        refine hg0 l q i ?_
        by_contra hcon
        rw [Bool.not_eq_false] at hcon
        have := tip_owner hU hk hcon
        rw [hU0] at this
        cases this
      rw [hno S ht e1 g hg h1 B hB, hno T htT e2 g' hg' h2 D hD]
    · have htip : tipIn S h = true := by
        have := tipIn_owner htT e5.order.le (l := h) (by rw [e2]; exact List.mem_singleton.2 rfl)
        subst hT
        exact this
      obtain ⟨a1, a2⟩ := tip_component π g hg h1 hB ht e1
      obtain ⟨b1, b2⟩ := tip_component π g' hg' h2 hD htT e2
      rcases h3 l with h5 | h5
      · rw [a2 h5, b2 (fun q i => by rw [h4 f l h q i e3 e4 htip, h5])]
      · obtain ⟨v, hv⟩ := Option.isSome_iff_exists.1 (h5 r (S.rows.length - 1) (last_get ht) (by rw [e1]; exact List.mem_singleton.2 rfl))
        rw [a1 v hv, b1 v (by rw [h4 f l h _ _ e3 e4 htip, hrows, hv])]
  have e1 : D.py = B.py := funext fun j => funext fun b =>
    elt _ (fun A => A.py j b) j (fun l r i => cPy S env b l r i) (fun l r i => cPy T env b l r i)
      (fun l r i A A' h => (step_facts h).py j b) (fun l r i A A' h => (step_facts h).py j b)
      (fun f l h q g1 g2 g3 => cPy_piece hT g1 g2 g3 b j)
  have e2 : D.mt = B.mt := funext fun j => funext fun b =>
    elt _ (fun A => A.mt j b) j (fun l r i => cMt S env b l r i) (fun l r i => cMt T env b l r i)
      (fun l r i A A' h => (step_facts h).mt j b) (fun l r i A A' h => (step_facts h).mt j b)
      (fun f l h q g1 g2 g3 => cMt_piece hT g1 g2 g3 b j)
  have e3 : D.tz = B.tz := funext fun j => funext fun b =>
    elt _ (fun A => A.tz j b) j (fun l r i => cTz S env b l r i) (fun l r i => cTz T env b l r i)
      (fun l r i A A' h => (step_facts h).tz j b) (fun l r i A A' h => (step_facts h).tz j b)
      (fun f l h q g1 g2 g3 => cTz_piece hT g1 g2 g3 b j)
  have e4 : D.hb = B.hb := tip _ (fun A => A.hb) (fun l r _ => cHb S l r) (fun l r _ => cHb T l r)
    (fun l r i h => by unfold cHb; cases l.lateral <;> simp [h]) (fun l r i h => by unfold cHb; cases l.lateral <;> simp [h])
    (fun l r i A A' h => (step_facts h).hb) (fun l r i A A' h => (step_facts h).hb)
    (fun l => by
      by_cases hx : ∃ m, l.lateral = some m ∧ (tipIn S l && (m.signature.2.1 && S.baseShear)) = true
      · obtain ⟨m, m1, m2⟩ := hx
        right
        intro q i hq hl
        obtain ⟨_, _, hf⟩ := call_facts hB hq hl
        exact hf.hasHb m m1 m2
      · left
        intro q _
        unfold cHb
        cases hm : l.lateral with
        | none => rfl
        | some m => exact if_neg (fun h => hx ⟨m, hm, h⟩))
    (fun f l h q i g1 _ g3 => (cHb_piece hT g1 g3 q).1)
  have e5 : D.mb = B.mb := tip _ (fun A => A.mb) (fun l r _ => cMb S l r) (fun l r _ => cMb T l r)
    (fun l r i h => by unfold cMb; cases l.lateral <;> simp [h]) (fun l r i h => by unfold cMb; cases l.lateral <;> simp [h])
    (fun l r i A A' h => (step_facts h).mb) (fun l r i A A' h => (step_facts h).mb)
    (fun l => by
      by_cases hx : ∃ m, l.lateral = some m ∧ (tipIn S l && (m.signature.2.2.2 && S.baseMoment)) = true
      · obtain ⟨m, m1, m2⟩ := hx
        right
        intro q i hq hl
        obtain ⟨_, _, hf⟩ := call_facts hB hq hl
        exact hf.hasMb m m1 m2
      · left
        intro q _
        unfold cMb
        cases hm : l.lateral with
        | none => rfl
        | some m => exact if_neg (fun h => hx ⟨m, hm, h⟩))
    (fun f l h q i g1 _ g3 => (cHb_piece hT g1 g3 q).2)
  have e6 : D.qz = B.qz := tip _ (fun A => A.qz) (fun l r i => cQz S env l r i) (fun l r i => cQz T env l r i)
    (fun l r i h => by unfold cQz; cases l.axial <;> simp [h]) (fun l r i h => by unfold cQz; cases l.axial <;> simp [h])
    (fun l r i A A' h => (step_facts h).qz) (fun l r i A A' h => (step_facts h).qz)
    (fun l => by
      by_cases hx : ∃ m, l.axial = some m ∧ (tipIn S l && S.baseAxial) = true
      · obtain ⟨m, m1, m2⟩ := hx
        right
        intro q i hq hl
        obtain ⟨_, _, hf⟩ := call_facts hB hq hl
        exact hf.hasQz m m1 m2
      · left
        intro q i
        unfold cQz
        cases hm : l.axial with
        | none => rfl
        | some m => exact if_neg (fun h => hx ⟨m, hm, h⟩))
    (fun f l h q i g1 g2 g3 => cQz_piece hT g1 g2 g3 q i)
  unfold createSprings
  rw [hD]
  simp only [Option.bind_eq_bind, Option.bind_some, Option.pure_def, Option.some.injEq]
  cases B
  cases D
  simp only at e1 e2 e3 e4 e5 e6
  rw [e1, e2, e3, e4, e5, e6]

end success

/-! ## Geometry of the profile -/

section geometry
variable {K : Type} [Field K] [LinearOrder K]

/-- The part of a layer above the elevation `s`. -/
def top (s : K) (l : Soil.Layer K) : Soil.Layer K := ⟨l.top, s, l.weight⟩

/-- The part of a layer below the elevation `s`. -/
def bot (s : K) (l : Soil.Layer K) : Soil.Layer K := ⟨s, l.bottom, l.weight⟩

omit [Field K] in
theorem sort_eq {L M : List (Soil.Layer K)} (hp : L.Perm M) (hs : M.Pairwise (fun a b => b.top < a.top)) :
    Soil.sortLayers L = M := by
  unfold Soil.sortLayers
  rw [Py.sortedBy_eq_of_strict (·.top) L M.reverse (hp.trans (List.reverse_perm M).symm) (List.pairwise_reverse.2 hs),
    List.reverse_reverse]

omit [LinearOrder K] [Field K] in
theorem chain_split {s : K} {l : Soil.Layer K} {A B : List (Soil.Layer K)}
    (h : (A ++ l :: B).IsChain (fun u l => l.top = u.bottom)) :
    (A ++ top s l :: bot s l :: B).IsChain (fun u l => l.top = u.bottom) := by
  rw [List.isChain_append] at h ⊢
  obtain ⟨h1, h2, h3⟩ := h
  refine ⟨h1, ?_, ?_⟩
  · rw [List.isChain_cons] at h2
    rw [List.isChain_cons_cons, List.isChain_cons]
    exact ⟨rfl, h2.1, h2.2⟩
  · intro x hx y hy
    simp only [List.head?_cons, Option.mem_def, Option.some.injEq] at hy h3
    subst hy
    exact h3 x hx l rfl

variable [IsStrictOrderedRing K]

/-- The profile with the layer `l` cut at `s`. -/
def cutProfile (sp : Soil.Profile K) (P : List (Soil.Layer K)) (l : Soil.Layer K) (Q : List (Soil.Layer K)) (s : K) : Soil.Profile K :=
  { sp with layers := P ++ top s l :: bot s l :: Q }

variable {sp : Soil.Profile K} {P Q : List (Soil.Layer K)} {l : Soil.Layer K} {s : K}

theorem sorted_cut (hsp : sp.layers = P ++ l :: Q) (hb : ∀ x ∈ sp.layers, x.bottom < x.top)
    (hc : (Soil.sortLayers sp.layers).IsChain (fun u l => l.top = u.bottom)) (h1 : l.bottom < s) (h2 : s < l.top) :
    ∃ A B, Soil.sortLayers sp.layers = A ++ l :: B ∧
      Soil.sortLayers (cutProfile sp P l Q s).layers = A ++ top s l :: bot s l :: B ∧
      (A ++ top s l :: bot s l :: B).IsChain (fun u l => l.top = u.bottom) ∧
      (A ++ top s l :: bot s l :: B).Pairwise (fun a b => b.top < a.top) := by
  have hl : l ∈ Soil.sortLayers sp.layers := (Soil.sortLayers_perm _).mem_iff.2 (by rw [hsp]; simp)
  obtain ⟨A, B, hAB⟩ := List.append_of_mem hl
  have hperm : (A ++ B).Perm (P ++ Q) := by
    have := Soil.sortLayers_perm sp.layers
    rw [hAB, hsp] at this
    exact ((List.perm_middle.symm.trans this).trans List.perm_middle).cons_inv
  have hch := chain_split (s := s) (hAB ▸ hc)
  have hst : (A ++ top s l :: bot s l :: B).Pairwise (fun a b => b.top < a.top) := by
    refine Order.chain_strict (fun x hx => ?_) hch
    have hmem : ∀ x ∈ A ++ B, x.bottom < x.top := by
      intro x hx
      refine hb x ?_
      rw [hsp]
      have := hperm.mem_iff.1 hx
      simp only [List.mem_append, List.mem_cons] at this ⊢
      tauto
    simp only [List.mem_append, List.mem_cons] at hx hmem
    rcases hx with hx | rfl | rfl | hx
    · exact hmem x (Or.inl hx)
    · exact h2
    · exact h1
    · exact hmem x (Or.inr hx)
  refine ⟨A, B, hAB, sort_eq ?_ hst, hch, hst⟩
  show (P ++ top s l :: bot s l :: Q).Perm _
  refine (List.perm_middle.trans ((List.perm_middle).cons _)).trans (List.Perm.trans ?_
    (List.perm_middle.trans ((List.perm_middle).cons _)).symm)
  exact (hperm.symm.cons _).cons _

theorem weight_cut (hsp : sp.layers = P ++ l :: Q) (hb : ∀ x ∈ sp.layers, x.bottom < x.top)
    (hc : (Soil.sortLayers sp.layers).IsChain (fun u l => l.top = u.bottom)) (h1 : l.bottom < s) (h2 : s < l.top) (e : K × K) :
    Model.elementWeight (cutProfile sp P l Q s) e = Model.elementWeight sp e := by
  obtain ⟨A, B, e1, e2, -, e4⟩ := sorted_cut hsp hb hc h1 h2
  have hst : (A ++ l :: B).Pairwise (fun a b => b.top < a.top) :=
    e1 ▸ Order.chain_strict (fun x hx => hb x ((Soil.sortLayers_perm _).mem_iff.1 hx)) hc
  have t1 : Model.soilTable sp = (A ++ l :: B).reverse := by
    unfold Model.soilTable
    rw [e1]
    exact Py.sortedBy_eq_of_strict _ _ _ (List.reverse_perm _).symm (List.pairwise_reverse.2 hst)
  have t2 : Model.soilTable (cutProfile sp P l Q s) = (A ++ top s l :: bot s l :: B).reverse := by
    unfold Model.soilTable
    rw [e2]
    exact Py.sortedBy_eq_of_strict _ _ _ (List.reverse_perm _).symm (List.pairwise_reverse.2 e4)
  unfold Model.elementWeight Model.mergeForward
  rw [t1, t2]
  simp only [List.reverse_append, List.reverse_cons, List.append_assoc, List.cons_append, List.nil_append, List.find?_append]
  cases B.reverse.find? (fun r => decide (e.1 ≤ r.top)) with
  | some x => rfl
  | none =>
    simp only [Option.none_or]
    by_cases ha : e.1 ≤ s
    · have hb' : e.1 ≤ l.top := ha.trans h2.le
      simp [List.find?_cons, bot, ha, hb', cutProfile]
      rfl
    · by_cases hb' : e.1 ≤ l.top
      · simp [List.find?_cons, bot, top, ha, hb', cutProfile]
        rfl
      · simp [List.find?_cons, bot, top, ha, hb', cutProfile]
        rfl

theorem bottom_cut (hsp : sp.layers = P ++ l :: Q) (h1 : l.bottom < s) (h2 : s < l.top) :
    (cutProfile sp P l Q s).bottomElevation = sp.bottomElevation := by
  unfold Soil.Profile.bottomElevation cutProfile
  rw [hsp]
  simp only [List.map_append, List.map_cons, List.sum_append, List.sum_cons, top, bot]
  rw [abs_of_pos (sub_pos.2 h2), abs_of_pos (sub_pos.2 h1), abs_of_pos (sub_pos.2 (h1.trans h2))]
  ring

/-- The cut is at an elevation of the mesh anyway, or below the pile. -/
def Meshed (p : Pile.Pile K) (x2mesh : List K) (tip s : K) : Prop :=
  s ∈ x2mesh ∨ (∃ g ∈ p.sections, s = g.top ∨ s = g.bottom) ∨ s < tip

variable [FloorRing K] {p : Pile.Pile K} {x2mesh : List K} {c tp tip : K}

theorem setup_cut (h : Weight.Setup p sp x2mesh c tp tip) (hsp : sp.layers = P ++ l :: Q) (h1 : l.bottom < s) (h2 : s < l.top)
    (hm : Meshed p x2mesh tip s) : Weight.Setup p (cutProfile sp P l Q s) x2mesh c tp tip := by
  have hb : ∀ x ∈ sp.layers, x.bottom < x.top := fun x hx => ((Soil.built_iff x).1 (h.built x hx)).1
  obtain ⟨A, B, e1, e2, e3, e4⟩ := sorted_cut hsp hb h.exact h1 h2
  have hlm : l ∈ sp.layers := by rw [hsp]; simp
  have hmem : ∀ x ∈ (cutProfile sp P l Q s).layers, x = top s l ∨ x = bot s l ∨ x ∈ sp.layers := by
    intro x hx
    rw [hsp]
    simp only [cutProfile, List.mem_append, List.mem_cons] at hx ⊢
    tauto
  exact {
    coarse := h.coarse
    tip_eq := h.tip_eq
    built := by
      intro x hx
      have hl := (Soil.built_iff l).1 (h.built l hlm)
      rcases hmem x hx with rfl | rfl | hx
      · exact (Soil.built_iff _).2 ⟨h2, hl.2⟩
      · exact (Soil.built_iff _).2 ⟨h1, hl.2⟩
      · exact h.built x hx
    exact := by rw [e2]; exact e3
    first := by
      obtain ⟨f, hf, hf'⟩ := h.first
      rw [e1] at hf
      rw [e2]
      cases A with
      | nil => exact ⟨top s l, rfl, by cases hf; exact hf'⟩
      | cons a A => exact ⟨f, hf, hf'⟩
    last := by
      obtain ⟨f, hf, hf'⟩ := h.last
      rw [e1] at hf
      rw [e2]
      rw [List.getLast?_append] at hf ⊢
      cases B with
      | nil =>
        refine ⟨bot s l, by simp, ?_⟩
        simp only [List.getLast?_singleton, Option.some_or, Option.some.injEq] at hf
        subst hf
        exact hf'
      | cons b B =>
        refine ⟨f, ?_, hf'⟩
        rw [← hf]
        simp [List.getLast?_cons_cons]
    grid := by
      rintro r (hr | ⟨sp', hsp', x, hx, hr, hr'⟩ | hr)
      · exact h.grid r (Or.inl hr)
      · cases hsp'
        have hcut : tip ≤ s → Spec.Mesh.OnGrid s := by
          intro hle
          rcases hm with hm | hm | hm
          · exact h.grid s (Or.inr (Or.inr hm))
          · exact h.grid s (Or.inl hm)
          · exact absurd hm (not_lt.2 hle)
        rcases hmem x hx with rfl | rfl | hx
        · rcases hr with rfl | rfl
          · exact h.grid _ (Or.inr (Or.inl ⟨sp, rfl, l, hlm, Or.inl rfl, hr'⟩))
          · exact hcut hr'
        · rcases hr with rfl | rfl
          · exact hcut hr'
          · exact h.grid _ (Or.inr (Or.inl ⟨sp, rfl, l, hlm, Or.inr rfl, hr'⟩))
        · exact h.grid _ (Or.inr (Or.inl ⟨sp, rfl, x, hx, hr, hr'⟩))
      · exact h.grid r (Or.inr (Or.inr hr))
    ground := h.ground
    extra := h.extra
    sections := h.sections
    pile := h.pile
    head := h.head
    below := h.below
    inside := h.inside }

theorem mesh_cut (hb : p.bottomElevation = some tip) (hsp : sp.layers = P ++ l :: Q) (h1 : l.bottom < s) (h2 : s < l.top)
    (hm : Meshed p x2mesh tip s) :
    Mesh.getCoordinates p (some (cutProfile sp P l Q s)) x2mesh c = Mesh.getCoordinates p (some sp) x2mesh c := by
  have hprim : Mesh.primary p tip (some (cutProfile sp P l Q s)) x2mesh = Mesh.primary p tip (some sp) x2mesh := by
    refine Py.uniqueDesc_congr _ _ (fun x => ?_)
    have hs : tip ≤ s → s ∈ Mesh.pileElevations p ∨ s ∈ x2mesh := by
      intro hle
      rcases hm with hm | ⟨g, hg, hm⟩ | hm
      · exact Or.inr hm
      · left
        unfold Mesh.pileElevations
        rw [List.mem_flatMap]
        exact ⟨g, hg, by simpa using hm⟩
      · exact absurd hm (not_lt.2 hle)
    have hE : ∀ y, y ∈ (cutProfile sp P l Q s).layers.map (·.top) ++ (cutProfile sp P l Q s).layers.map (·.bottom) ↔
        y = s ∨ y ∈ sp.layers.map (·.top) ++ sp.layers.map (·.bottom) := by
      intro y
      rw [hsp]
      simp only [cutProfile, top, bot, List.map_append, List.map_cons, List.mem_append, List.mem_cons]
      tauto
    have hany : ((cutProfile sp P l Q s).layers.map (·.top) ++ (cutProfile sp P l Q s).layers.map (·.bottom)).any
        (fun x => decide (x < tip)) = (sp.layers.map (·.top) ++ sp.layers.map (·.bottom)).any (fun x => decide (x < tip)) := by
      rw [Bool.eq_iff_iff, List.any_eq_true, List.any_eq_true]
      constructor
      · rintro ⟨y, hy, hy'⟩
        rcases (hE y).1 hy with rfl | hy
        · refine ⟨l.bottom, ?_, ?_⟩
          · rw [hsp]; simp
          · simp only [decide_eq_true_eq] at hy' ⊢
            exact h1.trans hy'
        · exact ⟨y, hy, hy'⟩
      · rintro ⟨y, hy, hy'⟩
        exact ⟨y, (hE y).2 (Or.inr hy), hy'⟩
    have hno : ¬ (sp.layers.map (·.top) ++ sp.layers.map (·.bottom)).any (fun x => decide (x < tip)) = true → tip ≤ s := by
      intro hn
      by_contra hlt
      refine hn (List.any_eq_true.2 ⟨l.bottom, by rw [hsp]; simp, ?_⟩)
      simp only [decide_eq_true_eq]
      exact h1.trans (not_le.1 hlt)
    have hsoil : ∀ x, x ∈ Mesh.soilElevations tip (some (cutProfile sp P l Q s)) ↔
        (x = s ∧ tip ≤ s) ∨ x ∈ Mesh.soilElevations tip (some sp) := by
      intro x
      simp only [Mesh.soilElevations, hany]
      by_cases ha : (sp.layers.map (·.top) ++ sp.layers.map (·.bottom)).any (fun x => decide (x < tip)) = true
      · rw [if_pos ha, if_pos ha, List.mem_filter, List.mem_filter, List.mem_cons, List.mem_cons, hE]
        simp only [decide_eq_true_eq]
        constructor
        · rintro ⟨rfl | rfl | h3, h4⟩
          · exact Or.inr ⟨Or.inl rfl, h4⟩
          · exact Or.inl ⟨rfl, h4⟩
          · exact Or.inr ⟨Or.inr h3, h4⟩
        · rintro (⟨rfl, h4⟩ | ⟨h3, h4⟩)
          · exact ⟨Or.inr (Or.inl rfl), h4⟩
          · exact ⟨h3.imp id Or.inr, h4⟩
      · rw [if_neg ha, if_neg ha, hE]
        exact or_congr_left ⟨fun h3 => ⟨h3, hno ha⟩, fun h3 => h3.1⟩
    simp only [List.mem_append, hsoil]
    constructor
    · rintro ((h3 | ⟨rfl, h4⟩ | h3) | h3)
      · exact Or.inl (Or.inl h3)
      · exact (hs h4).imp Or.inl id
      · exact Or.inl (Or.inr h3)
      · exact Or.inr h3
    · rintro ((h3 | h3) | h3)
      · exact Or.inl (Or.inl h3)
      · exact Or.inl (Or.inr (Or.inr h3))
      · exact Or.inr h3
  unfold Mesh.getCoordinates Mesh.exactNodes
  simp only [hb, Option.bind_eq_bind, Option.bind_some, hprim]

theorem soilProperties_cut (h : Weight.Setup p sp x2mesh c tp tip) (hsp : sp.layers = P ++ l :: Q) (h1 : l.bottom < s) (h2 : s < l.top)
    (hm : Meshed p x2mesh tip s) :
    Model.soilProperties p (cutProfile sp P l Q s) x2mesh c = Model.soilProperties p sp x2mesh c := by
  have hb : ∀ x ∈ sp.layers, x.bottom < x.top := fun x hx => ((Soil.built_iff x).1 (h.built x hx)).1
  unfold Model.soilProperties
  rw [mesh_cut h.tip_eq hsp h1 h2 hm]
  cases Mesh.getCoordinates p (some sp) x2mesh c with
  | none => rfl
  | some C => simp only [Model.soilRows, Model.stressColumns, weight_cut hsp hb h.exact h1 h2]; rfl

end geometry

/-! ## The theorem -/

/-- The profile with the layer `l`, listed between `P` and `Q`, cut at the elevation `s`. -/
noncomputable def cut (sp : SoilProfile) (P : List SoilLayer) (l : SoilLayer) (Q : List SoilLayer) (s : ℝ) : SoilProfile :=
  { sp with layers := P ++ upper s l :: lower s l :: Q }

theorem cut_geometry (sp : SoilProfile) (P : List SoilLayer) (l : SoilLayer) (Q : List SoilLayer) (s : ℝ) :
    (cut sp P l Q s).geometry = cutProfile sp.geometry (P.map (·.toLayer)) l.toLayer (Q.map (·.toLayer)) s := by
  simp [cut, SoilProfile.geometry, cutProfile, upper, lower, top, bot]

theorem mapModel_id (m : SoilModel.Model) : mapModel id m = m := by
  cases m <;> simp [mapModel]

theorem mapAxial_id (m : AxialModel) : mapAxial id m = m := by
  cases m <;> simp [mapAxial]

theorem piece_refl (l : SoilLayer) : Piece id l l where
  top := le_rfl
  bottom := le_rfl
  lateral := by cases l.lateral <;> simp [mapModel_id]
  axial := by cases l.axial <;> simp [mapAxial_id]
  keeps z h1 _ := ⟨by linarith, by linarith, fun _ => rfl, fun _ => rfl, fun _ _ h => h⟩

section theorems
variable {p : Pile.Pile ℝ} {sp : SoilProfile} {x2mesh : List ℝ} {c tp tip : ℝ} (h : Weight.Setup p sp.geometry x2mesh c tp tip)
  {P Q : List SoilLayer} {l : SoilLayer} {s : ℝ} (hsp : sp.layers = P ++ l :: Q) (h1 : l.bottom < s) (h2 : s < l.top)
  (hm : Meshed p x2mesh tip s)
include h hsp h1 h2 hm

omit h h1 h2 hm in
theorem geometry_layers : sp.geometry.layers = P.map (·.toLayer) ++ l.toLayer :: Q.map (·.toLayer) := by
  simp [SoilProfile.geometry, hsp]

/-- The cut profile is as good as the given one. -/
theorem C91_setup : Weight.Setup p (cut sp P l Q s).geometry x2mesh c tp tip := by
  rw [cut_geometry]
  exact setup_cut h (geometry_layers hsp) h1 h2 hm

/-- **C91, mesh.** -/
theorem C91_mesh : Mesh.getCoordinates p (some (cut sp P l Q s).geometry) x2mesh c =
    Mesh.getCoordinates p (some sp.geometry) x2mesh c := by
  rw [cut_geometry]
  exact mesh_cut h.tip_eq (geometry_layers hsp) h1 h2 hm

/-- **C91, stresses.** The table of unit weights and vertical stresses. -/
theorem C91_stresses : Model.soilProperties p (cut sp P l Q s).geometry x2mesh c =
    Model.soilProperties p sp.geometry x2mesh c := by
  rw [cut_geometry]
  exact soilProperties_cut h (geometry_layers hsp) h1 h2 hm

/-- **C91, springs.** If a Model can be created, so can the one with a layer cut in two, and it has the same springs. -/
theorem C91_springs (w : Switches) (table : List (ℝ × Pile.Section ℝ)) {env : Draws} (hd : SameDraws env s l.top) {A : Arrays}
    (hA : modelSprings p sp x2mesh c w table env = some A) :
    modelSprings p (cut sp P l Q s) x2mesh c w table env = some A := by
  obtain ⟨C, S, water, hC, hS, -, -, hlay, -, -, -, -, hrows, r, hr, -⟩ := C54_mesh h w table
  obtain ⟨C', T, water', hC', hT, -, -, hlay', -, -, -, -, hrows', -⟩ := C54_mesh (C91_setup h hsp h1 h2 hm) w table
  have hTS : T = { S with layers := P ++ upper s l :: lower s l :: Q } := by
    have hbot : (cut sp P l Q s).geometry.bottomElevation = sp.geometry.bottomElevation := by
      rw [cut_geometry]
      exact bottom_cut (geometry_layers hsp) h1 h2
    have hS' := hS
    have hT' := hT
    simp only [input, Option.bind_eq_bind, Option.bind_eq_some_iff, Option.pure_def, Option.some.injEq] at hS' hT'
    obtain ⟨rows, e1, t, e2, a, e3, f, e4, rfl⟩ := hS'
    obtain ⟨rows', e1', t', e2', a', e3', f', e4', rfl⟩ := hT'
    rw [C91_stresses h hsp h1 h2 hm, e1, Option.some.injEq] at e1'
    rw [e2, Option.some.injEq] at e2'
    rw [e3, Option.some.injEq] at e3'
    rw [e4, Option.some.injEq] at e4'
    subst e1' e2' e3' e4'
    simp only [hbot]
    rfl
  unfold modelSprings at hA ⊢
  rw [hS] at hA
  rw [hT]
  simp only [Option.bind_eq_bind, Option.bind_some] at hA ⊢
  refine create_pieces hTS (fun q hq => ?_) hr hA
  obtain ⟨o1, -, o3, o4⟩ := hrows q hq
  have hq' : q ∈ T.rows := by rw [hTS]; exact hq
  obtain ⟨-, -, o3', o4'⟩ := hrows' q hq'
  rcases le_or_gt q.top sp.topElevation with hle | hlt
  · right
    obtain ⟨⟨a, ha⟩, -⟩ := o3 hle
    obtain ⟨⟨b, hb⟩, -⟩ := o3' hle
    have hbm : b ∈ owners T q := by rw [hb]; exact List.mem_singleton.2 rfl
    have hbw : Within q b := by
      unfold owners at hbm
      rw [List.mem_filter, decide_eq_true_eq] at hbm
      exact ⟨hbm.2.1, hbm.2.2, o1⟩
    have ha' := ha
    have hb' := hb
    unfold owners at ha' hb'
    rw [hlay, hsp, List.filter_append] at ha'
    rw [hlay'] at hb'
    simp only [cut] at hb'
    rw [List.filter_append] at hb'
    by_cases hl : q.top ≤ l.top ∧ l.bottom ≤ q.bottom
    · rw [List.filter_cons_of_pos (by simpa using hl)] at ha'
      have hP : P.filter (fun l => decide (q.top ≤ l.top ∧ l.bottom ≤ q.bottom)) = [] := by
        have := congrArg List.length ha'
        simp only [List.length_append, List.length_cons, List.length_nil] at this
        exact List.length_eq_zero_iff.1 (by omega)
      have hQ : Q.filter (fun l => decide (q.top ≤ l.top ∧ l.bottom ≤ q.bottom)) = [] := by
        have := congrArg List.length ha'
        simp only [List.length_append, List.length_cons, List.length_nil] at this
        exact List.length_eq_zero_iff.1 (by omega)
      rw [hP, hQ] at ha'
      simp only [List.nil_append, List.cons.injEq, and_true] at ha'
      subst ha'
      have hbuv : b = upper s l ∨ b = lower s l := by
        have : b ∈ List.filter (fun l => decide (q.top ≤ l.top ∧ l.bottom ≤ q.bottom)) P ++
            List.filter (fun l => decide (q.top ≤ l.top ∧ l.bottom ≤ q.bottom)) (upper s l :: lower s l :: Q) := by
          rw [hb']; exact List.mem_singleton.2 rfl
        rw [hP, List.nil_append, List.mem_filter, List.mem_cons, List.mem_cons] at this
        obtain ⟨h3 | h3 | h3, h4⟩ := this
        · exact Or.inl h3
        · exact Or.inr h3
        · have : b ∈ Q.filter (fun l => decide (q.top ≤ l.top ∧ l.bottom ≤ q.bottom)) := List.mem_filter.2 ⟨h3, h4⟩
          rw [hQ] at this
          cases this
      rcases hbuv with rfl | rfl
      · exact ⟨_, l, _, ha, hb, upper_piece h1 h2, ⟨rfl, rfl, rfl, rfl⟩, hbw⟩
      · exact ⟨_, l, _, ha, hb, lower_piece h1 h2, hd, hbw⟩
    · have hu : ¬ (q.top ≤ (upper s l).top ∧ (upper s l).bottom ≤ q.bottom) := fun h3 => hl ⟨h3.1, h1.le.trans h3.2⟩
      have hv : ¬ (q.top ≤ (lower s l).top ∧ (lower s l).bottom ≤ q.bottom) := fun h3 => hl ⟨h3.1.trans h2.le, h3.2⟩
      rw [List.filter_cons_of_neg (by simpa using hl)] at ha'
      rw [List.filter_cons_of_neg (by simpa using hu), List.filter_cons_of_neg (by simpa using hv), ha'] at hb'
      simp only [List.cons.injEq, and_true] at hb'
      subst hb'
      exact ⟨id, a, a, ha, hb, piece_refl a, ⟨rfl, rfl, rfl, rfl⟩, hbw⟩
  · left
    exact ⟨o4 hlt, o4' hlt⟩

/-- **C91.** If the analysis of a Model gives a result, the Model with a layer cut in two gives the same result, for the same
boundary conditions and the same random points of the curves. -/
theorem C91_analysis_partial (ty : Kernel.ElementType) (w : Switches) (table : List (ℝ × Pile.Section ℝ)) {env : Draws}
    (hd : SameDraws env s l.top) (bcs : List (BC.Cond ℝ)) {R : SoilResult}
    (hR : solveSoil ty p sp x2mesh c w table env bcs = some R) :
    solveSoil ty p (cut sp P l Q s) x2mesh c w table env bcs = some R := by
  unfold solveSoil at hR ⊢
  rw [C91_mesh h hsp h1 h2 hm]
  cases hC : Mesh.getCoordinates p (some sp.geometry) x2mesh c with
  | none => rw [hC] at hR; cases hR
  | some C =>
    cases hA : modelSprings p sp x2mesh c w table env with
    | none => rw [hC, hA] at hR; cases hR
    | some A =>
      rw [hC, hA] at hR
      rw [C91_springs h hsp h1 h2 hm w table hd hA]
      exact hR

omit h h1 h2 hm in
/-- The random points do not matter either, where the springs do not depend on them (C90): whatever `random()` returned for
the one Model and for the other. -/
theorem steady_cut (hst : ∀ x ∈ sp.layers, ∀ m, x.lateral = some m → Reproducible.Steady m) (h1 : l.bottom < s) (h2 : s < l.top) :
    ∀ x ∈ (cut sp P l Q s).layers, ∀ m, x.lateral = some m → Reproducible.Steady m := by
  have hh : 0 < l.top - l.bottom := by linarith
  have ht : 0 < fraction s l := div_pos (by linarith) hh
  have ht1 : fraction s l < 1 := (div_lt_one hh).2 (by linarith)
  have key : ∀ f : Param ℝ → Param ℝ, (∀ q d k v, layered (f q) d k = some v → ∃ d' k', layered q d' k' = some v) →
      ∀ m, l.lateral.map (mapModel f) = some m → Reproducible.Steady m := by
    intro f hf m hm s' hs'
    rw [Option.map_eq_some_iff] at hm
    obtain ⟨m0, hm0, rfl⟩ := hm
    have hs0 := hst l (by rw [hsp]; simp) m0 hm0
    cases m0 with
    | matlock s0 =>
      simp only [mapModel, SoilModel.Model.matlock.injEq] at hs'
      subst hs'
      obtain ⟨g1, g2⟩ := hs0 s0 rfl
      refine ⟨g1, fun d k v hv => ?_⟩
      obtain ⟨d', k', hv'⟩ := hf _ _ _ _ hv
      exact g2 d' k' v hv'
    | _ => cases hs'
  have hz : ∀ (q : Param ℝ) d k v, layered q d k = some v → k ≠ 0 := by
    rintro q d k v hv rfl
    unfold layered at hv
    cases hq : topBottom q <;> simp [hq] at hv
  intro x hx m hxm
  simp only [cut, List.mem_append, List.mem_cons] at hx
  rcases hx with hx | rfl | rfl | hx
  · exact hst x (by rw [hsp]; simp [hx]) m hxm
  · refine key _ (fun q d k v hv => ?_) m hxm
    have hk := hz _ _ _ _ hv
    have e : k = fraction s l * (k / fraction s l) := by field_simp
    rw [e, layered_above q (div_ne_zero hk ht.ne') ht.ne'] at hv
    exact ⟨_, _, hv⟩
  · refine key _ (fun q d k v hv => ?_) m hxm
    have hk := hz _ _ _ _ hv
    have h3 : (1 - fraction s l) ≠ 0 := by linarith
    have e : k = (1 - fraction s l) * (k / (1 - fraction s l)) := by field_simp
    have e' : d = (d + fraction s l * (k / (1 - fraction s l))) - fraction s l * (k / (1 - fraction s l)) := by ring
    have hv' := layered_below (d := d + fraction s l * (k / (1 - fraction s l))) q (div_ne_zero hk h3) h3
    rw [← e, ← e', hv] at hv'
    exact ⟨_, _, hv'.symm⟩
  · exact hst x (by rw [hsp]; simp [hx]) m hxm

/-- **C91, axial capacities.** -/
theorem C91_capacity (w : Switches) (table : List (ℝ × Pile.Section ℝ)) {env : Draws} (hd : SameDraws env s l.top) :
    (∀ v, Capacity.shaft p sp x2mesh c w table env = some v → Capacity.shaft p (cut sp P l Q s) x2mesh c w table env = some v) ∧
    (∀ v, Capacity.tip p sp x2mesh c w table env = some v → Capacity.tip p (cut sp P l Q s) x2mesh c w table env = some v) := by
  unfold Capacity.shaft Capacity.tip
  rw [C91_mesh h hsp h1 h2 hm]
  cases hA : modelSprings p sp x2mesh c w table env with
  | none =>
    constructor
    · intro v hv
      cases hC : Mesh.getCoordinates p (some sp.geometry) x2mesh c <;> rw [hC] at hv <;> cases hv
    · intro v hv
      cases hv
  | some A =>
    rw [C91_springs h hsp h1 h2 hm w table hd hA]
    exact ⟨fun _ hv => hv, fun _ hv => hv⟩

end theorems

/-- **C91, weights.** The weight of the pile and of the soil inside it. -/
theorem C91_weights {K : Type} [Field K] [LinearOrder K] [IsStrictOrderedRing K] [FloorRing K] (pi : K)
    {p : Pile.Pile K} {sp : Soil.Profile K} {x2mesh : List K} {c tp tip : K} (h : Weight.Setup p sp x2mesh c tp tip)
    {P Q : List (Soil.Layer K)} {l : Soil.Layer K} {s : K} (hsp : sp.layers = P ++ l :: Q) (h1 : l.bottom < s) (h2 : s < l.top)
    (hm : Meshed p x2mesh tip s) :
    ∃ C, Mesh.getCoordinates p (some sp) x2mesh c = some C ∧
      Mesh.getCoordinates p (some (cutProfile sp P l Q s)) x2mesh c = some C ∧
      OpenPile.Weight.effectivePileWeight pi p (cutProfile sp P l Q s) C.elements =
        OpenPile.Weight.effectivePileWeight pi p sp C.elements ∧
      OpenPile.Weight.entrappedSoilWeight pi p (cutProfile sp P l Q s) C.elements =
        OpenPile.Weight.entrappedSoilWeight pi p sp C.elements := by
  obtain ⟨C, hC, hf⟩ := Weight.mesh_facts (setup_cut h hsp h1 h2 hm)
  have hmesh := mesh_cut (c := c) h.tip_eq hsp h1 h2 hm
  refine ⟨C, by rw [← hmesh, hC], hC, rfl, ?_⟩
  have hcongr : ∀ e ∈ C.elements, OpenPile.Weight.soilWeight pi p (cutProfile sp P l Q s) e = OpenPile.Weight.soilWeight pi p sp e := by
    intro e he
    have hcut : s ≤ e.2 ∨ e.1 ≤ s := hf.layCut e he (top s l) (by simp [cutProfile]) s (Or.inr rfl)
    have hpos := hf.pos e he
    unfold OpenPile.Weight.soilWeight
    rw [hsp]
    simp only [cutProfile, List.foldl_append, List.foldl_cons]
    congr 1
    by_cases hl : e.1 ≤ l.top ∧ l.bottom ≤ e.2
    · rw [if_pos (show e.1 ≤ l.top ∧ e.2 ≥ l.bottom from hl)]
      rcases hcut with hs | hs
      · rw [if_neg (show ¬ (e.1 ≤ (bot s l).top ∧ e.2 ≥ (bot s l).bottom) from fun h3 => absurd h3.1 (not_le.2 (lt_of_le_of_lt hs hpos))),
          if_pos (show e.1 ≤ (top s l).top ∧ e.2 ≥ (top s l).bottom from ⟨hl.1, hs⟩)]
        rfl
      · rw [if_pos (show e.1 ≤ (bot s l).top ∧ e.2 ≥ (bot s l).bottom from ⟨hs, hl.2⟩)]
        rfl
    · rw [if_neg (show ¬ (e.1 ≤ l.top ∧ e.2 ≥ l.bottom) from hl),
        if_neg (show ¬ (e.1 ≤ (bot s l).top ∧ e.2 ≥ (bot s l).bottom) from fun h3 => hl ⟨h3.1.trans h2.le, h3.2⟩),
        if_neg (show ¬ (e.1 ≤ (top s l).top ∧ e.2 ≥ (top s l).bottom) from fun h3 => hl ⟨h3.1, h1.le.trans h3.2⟩)]
      rfl
  unfold OpenPile.Weight.entrappedSoilWeight
  congr 1
  clear hC hf hmesh
  revert hcongr
  generalize C.elements = els
  intro hcongr
  induction els with
  | nil => rfl
  | cons e L ih =>
    rw [List.mapM_cons, List.mapM_cons, hcongr e (List.mem_cons_self ..),
      ih (fun e he => hcongr e (List.mem_cons_of_mem _ he))]

/-- **C91 for all random points.** Where the springs do not depend on the random points of the curves (C90), the result is
the same whatever points are drawn for the Model and for the one with the layer cut in two. -/
theorem C91_any_draws_partial {p : Pile.Pile ℝ} {sp : SoilProfile} {x2mesh : List ℝ} {c tp tip : ℝ}
    (h : Weight.Setup p sp.geometry x2mesh c tp tip) {P Q : List SoilLayer} {l : SoilLayer} {s : ℝ}
    (hsp : sp.layers = P ++ l :: Q) (h1 : l.bottom < s) (h2 : s < l.top) (hm : Meshed p x2mesh tip s) (w : Switches)
    (table : List (ℝ × Pile.Section ℝ)) {env env' : Draws} (he : Reproducible.GoodEnv env) (he' : Reproducible.GoodEnv env')
    (hst : ∀ x ∈ sp.layers, ∀ m, x.lateral = some m → Reproducible.Steady m) (hw : ∀ x ∈ table, 0 < x.2.width) :
    (∀ ty bcs R, solveSoil ty p sp x2mesh c w table env bcs = some R →
      solveSoil ty p (cut sp P l Q s) x2mesh c w table env' bcs = some R) ∧
    (∀ v, Capacity.shaft p sp x2mesh c w table env = some v → Capacity.shaft p (cut sp P l Q s) x2mesh c w table env' = some v) ∧
    (∀ v, Capacity.tip p sp x2mesh c w table env = some v → Capacity.tip p (cut sp P l Q s) x2mesh c w table env' = some v) := by
  have hg := Reproducible.good_quarters
  have hd : SameDraws Reproducible.quarters s l.top := ⟨rfl, rfl, rfl, rfl⟩
  obtain ⟨a1, a2, a3⟩ := Reproducible.C90_reproducible_partial he hg p sp x2mesh c w table hst hw
  obtain ⟨b1, b2, b3⟩ := Reproducible.C90_reproducible_partial he' hg p (cut sp P l Q s) x2mesh c w table (steady_cut hsp hst h1 h2) hw
  refine ⟨fun ty bcs R hR => ?_, fun v hv => ?_, fun v hv => ?_⟩
  · rw [b1]
    rw [a1] at hR
    exact C91_analysis_partial h hsp h1 h2 hm ty w table hd bcs hR
  · rw [b2]
    rw [a2] at hv
    exact (C91_capacity h hsp h1 h2 hm w table hd).1 v hv
  · rw [b3]
    rw [a3] at hv
    exact (C91_capacity h hsp h1 h2 hm w table hd).2 v hv

/-! ## Cases -/

/-- A tube in Cowden clay with a modulus that grows with depth from 1000 to 20000 kPa over 20 m; the layer is cut at the pile
tip, where the modulus is 10500 kPa. -/
example (w : Switches) :
    ∃ A, modelSprings Creation.tube (Creation.soil (.pisaClay ⟨.cowden, .scalar 60, .list [1000, 20000], .num 1, .num 1, .num 1, .num 1⟩))
        [] 1 w (OpenPile.Model.stableRows Creation.tube) Props.Assemble.drawsExample = some A ∧
      modelSprings Creation.tube ⟨0, -1,
        [⟨⟨0, -10, 18⟩, some (.pisaClay ⟨.cowden, .scalar 60, .list [1000, 10500], .num 1, .num 1, .num 1, .num 1⟩),
            some (.clay axialExample)⟩,
          ⟨⟨-10, -20, 18⟩, some (.pisaClay ⟨.cowden, .scalar 60, .list [10500, 20000], .num 1, .num 1, .num 1, .num 1⟩),
            some (.clay axialExample)⟩]⟩
        [] 1 w (OpenPile.Model.stableRows Creation.tube) Props.Assemble.drawsExample = some A := by
  obtain ⟨C, S, water, fc, ft, A, -, hS, -, -, -, -, -, -, -, -, hA⟩ := Creation.created (Creation.sound_pisa .cowden) w
  have hsome : modelSprings Creation.tube
      (Creation.soil (.pisaClay ⟨.cowden, .scalar 60, .list [1000, 20000], .num 1, .num 1, .num 1, .num 1⟩)) [] 1 w
      (OpenPile.Model.stableRows Creation.tube) Props.Assemble.drawsExample = some A := by rw [modelSprings, hS]; exact hA
  refine ⟨A, hsome, ?_⟩
  have := C91_springs (setup_example _ _) (P := []) (Q := []) (s := -10) rfl (by norm_num) (by norm_num)
    (Or.inr (Or.inl ⟨_, List.mem_singleton.2 rfl, Or.inr rfl⟩)) w (OpenPile.Model.stableRows Creation.tube)
    (env := Props.Assemble.drawsExample) ⟨rfl, rfl, rfl, rfl⟩ hsome
  rw [← this]
  congr 1
  simp only [cut, Creation.soil, upper, lower, fraction, List.nil_append, Option.map_some, mapModel, mapAxial, above, below, axialExample]
  norm_num

/-- Sand over clay; the sand is cut at an extra elevation, the clay at the pile tip and below it. -/
example (a b : SoilModel.Model) (w : Switches) (table : List (ℝ × Pile.Section ℝ)) {env : Draws} (ty : Kernel.ElementType)
    (bcs : List (BC.Cond ℝ)) (hd : SameDraws env (-2) 0) {R : SoilResult}
    (hR : solveSoil ty ⟨[⟨1, -10, 2, 1 / 20⟩], Pile.steel⟩ ⟨0, -1, [⟨⟨-4, -20, 18⟩, some b, none⟩, ⟨⟨0, -4, 20⟩, some a, none⟩]⟩
      [-2, -3] 1 w table env bcs = some R) :
    solveSoil ty ⟨[⟨1, -10, 2, 1 / 20⟩], Pile.steel⟩ ⟨0, -1, [⟨⟨-4, -20, 18⟩, some b, none⟩,
      ⟨⟨0, -2, 20⟩, some (mapModel (above (1 / 2)) a), none⟩, ⟨⟨-2, -4, 20⟩, some (mapModel (below (1 / 2)) a), none⟩]⟩
      [-2, -3] 1 w table env bcs = some R := by
  have := C91_analysis_partial (Order.setup_two (some b) (some a) none none) (P := [⟨⟨-4, -20, 18⟩, some b, none⟩]) (Q := [])
    (l := ⟨⟨0, -4, 20⟩, some a, none⟩) (s := -2) rfl (by norm_num) (by norm_num) (Or.inl (by simp)) ty w table hd bcs hR
  rw [← this]
  congr 1
  simp only [cut, upper, lower, fraction, List.singleton_append, Option.map_some, Option.map_none]
  norm_num

example {w : Switches} {table : List (ℝ × Pile.Section ℝ)} {env : Draws} {A : Arrays} {m : Option SoilModel.Model}
    {x : Option AxialModel} (hd : SameDraws env (-15) (-4))
    (hA : modelSprings ⟨[⟨1, -10, 2, 1 / 20⟩], Pile.steel⟩ ⟨0, -1, [⟨⟨-4, -20, 18⟩, m, x⟩, ⟨⟨0, -4, 20⟩, none, none⟩]⟩ [-2, -3] 1
      w table env = some A) :
    modelSprings ⟨[⟨1, -10, 2, 1 / 20⟩], Pile.steel⟩ (cut ⟨0, -1, [⟨⟨-4, -20, 18⟩, m, x⟩, ⟨⟨0, -4, 20⟩, none, none⟩]⟩ []
      ⟨⟨-4, -20, 18⟩, m, x⟩ [⟨⟨0, -4, 20⟩, none, none⟩] (-15)) [-2, -3] 1 w table env = some A :=
  C91_springs (Order.setup_two m none x none) (P := []) rfl (by norm_num) (by norm_num) (Or.inr (Or.inr (by norm_num))) w table hd hA

end OpenPile.Props.Split

/-
Property C119: higher multipliers of resistances and lower multipliers of displacements make a pile give way less.

`soilmodels.py` 675-678 and the like (multipliers), `winkler.py` 502-637 (`winkler`), from the tables of results.  The layers are
those of the first Model with other values of `p_multiplier`, `y_multiplier`, `t_multiplier`, `z_multiplier`, `Q_multiplier` and
`w_multiplier`.
-/
import Verif.Props.StifferSoil
import Verif.Props.Creation

namespace OpenPile.Props.Multiplied
open OpenPile.Kernel OpenPile.Winkler OpenPile.Spring OpenPile.Result OpenPile.BC OpenPile.Mesh OpenPile.Analysis
open OpenPile.Spec.Spring OpenPile.Assemble OpenPile.SoilAnalysis OpenPile.SoilModel
open OpenPile.Props.Spring OpenPile.Props.SoilTables
open OpenPile.Props.Assemble (C54_py C54_tz C54_outside C54_mesh C47_hb_partial C47_mb_partial C47_qz TipRow owners)
open OpenPile.Spec.Kernel OpenPile.Props.Beam OpenPile.Props.Analysis OpenPile.Props.Reported
open OpenPile.Props.Compliance (Accepted OneLoad)
open OpenPile.Props.SoilSupport (extent)
open OpenPile.Props.Superpose (OnFirstBranch)
open OpenPile.Props.StifferSoil

/-! ### other multipliers -/

/-- The same soil model with another `p_multiplier` and another `y_multiplier`. -/
def withP (q : Mult × Mult) : Model → Model
  | .pisaClay s => .pisaClay { s with p := q.1, y := q.2 }
  | .dunkirk s => .dunkirk { s with p := q.1, y := q.2 }
  | .custom s => .custom { s with p := q.1, y := q.2 }
  | .apiSand s => .apiSand { s with p := q.1, y := q.2 }
  | .matlock s => .matlock { s with p := q.1, y := q.2 }
  | .rock s => .rock { s with p := q.1, y := q.2 }

theorem withP_signature (q : Mult × Mult) (m : Model) : (withP q m).signature = m.signature := by cases m <;> rfl

theorem withP_hb (q : Mult × Mult) (m : Model) (a : Args) : (withP q m).hb a = m.hb a := by cases m <;> rfl

theorem withP_mb (q : Mult × Mult) (m : Model) (a : Args) : (withP q m).mb a = m.mb a := by cases m <;> rfl

theorem multiply_two {y p : Mult} {q : Mult × Mult} {X : ℝ} {l c c' : List (ℝ × ℝ)} (h : multiply y p X l = some c)
    (h' : multiply q.2 q.1 X l = some c') :
    ∃ ym pm ym' pm', (p.val X = some pm ∧ y.val X = some ym) ∧ (q.1.val X = some pm' ∧ q.2.val X = some ym') ∧
      c = Conic.scale ym pm l ∧ c' = Conic.scale ym' pm' l := by
  unfold multiply at h h'
  simp only [Option.bind_eq_bind, Option.bind_eq_some_iff, Option.pure_def, Option.some.injEq] at h h'
  obtain ⟨ym, h1, pm, h2, rfl⟩ := h
  obtain ⟨ym', h3, pm', h4, rfl⟩ := h'
  exact ⟨ym, pm, ym', pm', ⟨h2, h1⟩, ⟨h4, h3⟩, rfl, rfl⟩

theorem guard_iff {α : Type} (a : Args) (r : Option α) (c : α) : SoilModel.guard a r = some c ↔ ¬a.depth > a.height ∧ r = some c := by
  unfold SoilModel.guard
  split_ifs with h <;> simp [h]

/-- The two p-y curves are one curve times the two multipliers. -/
theorem withP_py {q : Mult × Mult} {m : Model} {a : Args} {e : Env} {c c' : List (ℝ × ℝ)} (h : m.py a e = some c)
    (h' : (withP q m).py a e = some c') :
    ∃ l ym pm ym' pm', (m.multipliers.1.val a.X = some pm ∧ m.multipliers.2.1.val a.X = some ym) ∧
      (q.1.val a.X = some pm' ∧ q.2.val a.X = some ym') ∧ c = Conic.scale ym pm l ∧ c' = Conic.scale ym' pm' l := by
  cases m with
  | pisaClay s =>
    simp only [withP, Model.py, PisaClay.py, PisaClay.pyCurve, guard_iff, Option.bind_eq_bind,
      Option.bind_eq_some_iff] at h h'
    obtain ⟨-, Su, s1, G, s2, l, s3, s4⟩ := h
    obtain ⟨-, Su', s1', G', s2', l', s3', s4'⟩ := h'
    rw [s1, Option.some.injEq] at s1'
    rw [s2, Option.some.injEq] at s2'
    subst s1' s2'
    rw [s3, Option.some.injEq] at s3'
    subst s3'
    exact ⟨l, multiply_two s4 s4'⟩
  | dunkirk s =>
    simp only [withP, Model.py, Dunkirk.py, guard_iff, Option.bind_eq_bind,
      Option.bind_eq_some_iff] at h h'
    obtain ⟨-, Su, s1, G, s2, l, s3, s4⟩ := h
    obtain ⟨-, Su', s1', G', s2', l', s3', s4'⟩ := h'
    rw [s1, Option.some.injEq] at s1'
    rw [s2, Option.some.injEq] at s2'
    subst s1' s2'
    rw [s3, Option.some.injEq] at s3'
    subst s3'
    exact ⟨l, multiply_two s4 s4'⟩
  | custom s =>
    have e : Custom.pyCurve { s with p := q.1, y := q.2 } a = s.pyCurve a := rfl
    simp only [withP, Model.py, Custom.py, guard_iff, Option.bind_eq_bind,
      Option.bind_eq_some_iff, e] at h h'
    obtain ⟨-, l, s3, s4⟩ := h
    obtain ⟨-, l', s3', s4'⟩ := h'
    rw [s3, Option.some.injEq] at s3'
    subst s3'
    exact ⟨l, multiply_two s4 s4'⟩
  | apiSand s =>
    have e : ∀ phi, ApiSand.subgrade { s with p := q.1, y := q.2 } a phi = s.subgrade a phi := fun _ => rfl
    simp only [withP, Model.py, ApiSand.py, guard_iff, Option.bind_eq_bind,
      Option.bind_eq_some_iff, e] at h h'
    obtain ⟨-, Su, s1, G, s2, l, s3, s4⟩ := h
    obtain ⟨-, Su', s1', G', s2', l', s3', s4'⟩ := h'
    rw [s1, Option.some.injEq] at s1'
    subst s1'
    rw [s2, Option.some.injEq] at s2'
    subst s2'
    rw [s3, Option.some.injEq] at s3'
    subst s3'
    exact ⟨l, multiply_two s4 s4'⟩
  | matlock s =>
    simp only [withP, Model.py, MatlockClay.py, guard_iff, Option.bind_eq_bind,
      Option.bind_eq_some_iff] at h h'
    obtain ⟨-, Su, s1, G, s2, s3⟩ := h
    obtain ⟨-, Su', s1', G', s2', s3'⟩ := h'
    rw [s1, Option.some.injEq] at s1'
    rw [s2, Option.some.injEq] at s2'
    subst s1' s2'
    rcases hc : s.curve with _ | _ <;> simp only [hc, Option.bind_eq_some_iff] at s3 s3'
    all_goals
      obtain ⟨l, s3, s4⟩ := s3
      obtain ⟨l', s3', s4'⟩ := s3'
      rw [s3, Option.some.injEq] at s3'
      subst s3'
      exact ⟨l, multiply_two s4 s4'⟩
  | rock s =>
    simp only [withP, Model.py, WeakRock.py, guard_iff, Option.bind_eq_bind,
      Option.bind_eq_some_iff] at h h'
    obtain ⟨-, Su, s1, G, s2, l, s3, s4⟩ := h
    obtain ⟨-, Su', s1', G', s2', l', s3', s4'⟩ := h'
    rw [s1, Option.some.injEq] at s1'
    rw [s2, Option.some.injEq] at s2'
    subst s1' s2'
    rw [s3, Option.some.injEq] at s3'
    subst s3'
    exact ⟨l, multiply_two s4 s4'⟩

theorem scale_sum (x p : ℝ) (l : List (ℝ × ℝ)) : ((Conic.scale x p l).map (·.1)).sum = (l.map (·.1)).sum * x := by
  induction l with
  | nil => simp [Conic.scale]
  | cons a l ih =>
    simp only [Conic.scale, List.map_cons, List.sum_cons] at ih ⊢
    rw [ih]
    ring

/-- Its initial slope grows with the multiplier of the resistance and shrinks with that of the displacement. -/
theorem slope_mono {l : List (ℝ × ℝ)} {ym pm ym' pm' k k' : ℝ} (h0 : 0 ≤ pm) (h1 : pm ≤ pm') (h2 : 0 < ym') (h3 : ym' ≤ ym)
    (h : pyStiffness (Conic.scale ym pm l) .initial 0 = some k) (h' : pyStiffness (Conic.scale ym' pm' l) .initial 0 = some k') :
    k ≤ k' := by
  have h4 : 0 < ym := h2.trans_le h3
  unfold pyStiffness at h h'
  rw [scale_sum] at h h'
  by_cases hs : (l.map (·.1)).sum = 0
  · rw [hs, zero_mul, if_pos rfl, Option.some.injEq] at h h'
    rw [← h, ← h']
  rw [if_neg (mul_ne_zero hs h4.ne')] at h
  rw [if_neg (mul_ne_zero hs h2.ne')] at h'
  rcases l with _ | ⟨⟨x0, p0⟩, _ | ⟨⟨x1, p1⟩, rest⟩⟩
  · simp [Conic.scale, curveStiffness] at h
  · simp [Conic.scale, curveStiffness] at h
  · simp only [Conic.scale, List.map_cons, curveStiffness, true_or, if_true, absQuot] at h h'
    split_ifs at h h' with hx hx'
    rw [Option.some.injEq] at h h'
    rw [← sub_mul] at hx'
    have hd : 0 < |x1 - x0| := abs_pos.2 (left_ne_zero_of_mul hx')
    rw [← h, ← h', abs_div, abs_div, ← sub_mul, ← sub_mul, ← sub_mul, ← sub_mul, abs_mul, abs_mul, abs_mul, abs_mul,
      abs_of_nonneg h0, abs_of_nonneg (h0.trans h1), abs_of_pos h2, abs_of_pos h4]
    gcongr
    exact mul_nonneg (abs_nonneg _) (h0.trans h1)

/-! ### other multipliers of the axial springs -/

/-- The multipliers of a layer: those of its p-y, t-z and Q-z curves. -/
structure Factors where
  p : Mult
  y : Mult
  t : ℝ
  z : ℝ
  q : ℝ
  w : ℝ

/-- The multipliers of an axial soil model, in the order resistance and displacement along the shaft, then at the tip. -/
def axialFactors : AxialModel → ℝ × ℝ × ℝ × ℝ
  | .clay m => (m.tMul, m.zMul, m.qMul, m.wMul)
  | .sand m => (m.tMul, m.zMul, m.qMul, m.wMul)

/-- The same axial soil model with other multipliers. -/
def withT (f : Factors) : AxialModel → AxialModel
  | .clay m => .clay { m with tMul := f.t, zMul := f.z, qMul := f.q, wMul := f.w }
  | .sand m => .sand { m with tMul := f.t, zMul := f.z, qMul := f.q, wMul := f.w }

/-- A curve as it is stored: both rows multiplied, then mirrored. -/
def stored (sz st : ℝ) (c : List ℝ × List ℝ) : List (ℝ × ℝ) := (c.1.zip c.2).map (fun q => (-(q.1 * sz), -(q.2 * st)))

theorem stored_eq (sz st : ℝ) (c : List ℝ × List ℝ) :
    ((Axial.scaleCurve sz st c).1.zip (Axial.scaleCurve sz st c).2).map (fun q => (-q.1, -q.2)) = stored sz st c := by
  simp [Axial.scaleCurve, stored, List.zip_map, Function.comp_def]

theorem axial_nonneg {tab : List (ℝ × ℝ)} {k : ℝ} (h : axialCurveStiffness tab .initial 0 = some k) : 0 ≤ k := by
  unfold axialCurveStiffness at h
  simp only [true_or, if_true, Option.bind_eq_bind, Option.bind_eq_some_iff] at h
  obtain ⟨a, -, b, -, h⟩ := h
  unfold absQuot at h
  split_ifs at h
  rw [← Option.some.inj h]
  exact abs_nonneg _

theorem axial_mono {c : List ℝ × List ℝ} {sz st sz' st' k k' : ℝ} (h1 : |st| ≤ |st'|) (h2 : 0 < sz') (h3 : sz' ≤ sz)
    (h : axialCurveStiffness (stored sz st c) .initial 0 = some k) (h' : axialCurveStiffness (stored sz' st' c) .initial 0 = some k') :
    k ≤ k' := by
  have h4 : 0 < sz := h2.trans_le h3
  unfold axialCurveStiffness at h h'
  simp only [stored, List.length_map, List.getElem?_map, true_or, if_true, Option.bind_eq_bind, Option.bind_eq_some_iff,
    Option.map_eq_some_iff] at h h'
  obtain ⟨_, ⟨q0, e0, rfl⟩, _, ⟨q1, e1, rfl⟩, h⟩ := h
  obtain ⟨_, ⟨r0, e2, rfl⟩, _, ⟨r1, e3, rfl⟩, h'⟩ := h'
  rw [e0, Option.some.injEq] at e2
  rw [e1, Option.some.injEq] at e3
  subst e2 e3
  unfold absQuot at h h'
  split_ifs at h h' with g g'
  rw [Option.some.injEq] at h h'
  have d : ∀ a b s : ℝ, -(a * s) - -(b * s) = (b - a) * s := fun a b s => by ring
  rw [d] at g'
  have hd : 0 < |q1.1 - q0.1| := abs_pos.2 (left_ne_zero_of_mul g')
  rw [← h, ← h', d, d, d, d, abs_div, abs_div, abs_mul, abs_mul, abs_mul, abs_mul, abs_of_pos h2, abs_of_pos h4]
  gcongr

theorem tz_mono {c : List ℝ × List ℝ} {sz st sz' st' k k' : ℝ} (h1 : |st| ≤ |st'|) (h2 : 0 < sz') (h3 : sz' ≤ sz)
    (h : tzStiffness (stored sz st c) .initial 0 = some k) (h' : tzStiffness (stored sz' st' c) .initial 0 = some k') : k ≤ k' := by
  have e : ∀ s t : ℝ, 0 < s → ((stored s t c).map (fun q => |q.1|)).sum = ((c.1.zip c.2).map (fun q => |q.1|)).sum * s := by
    intro s t hs
    rw [← List.sum_map_mul_right, stored, List.map_map]
    congr 2
    funext q
    simp [abs_mul, abs_of_pos hs]
  have h4 : 0 < sz := h2.trans_le h3
  unfold tzStiffness at h h'
  rw [e _ _ h4] at h
  rw [e _ _ h2] at h'
  by_cases hs : ((c.1.zip c.2).map (fun q => |q.1|)).sum = 0
  · rw [hs, zero_mul, if_pos rfl, Option.some.injEq] at h h'
    rw [← h, ← h']
  · rw [if_neg (mul_ne_zero hs h4.ne')] at h
    rw [if_neg (mul_ne_zero hs h2.ne')] at h'
    exact axial_mono h1 h2 h3 h h'

theorem qz_mono {c : List ℝ × List ℝ} {sz st sz' st' k k' : ℝ} (h1 : |st| ≤ |st'|) (h2 : 0 < sz') (h3 : sz' ≤ sz)
    (h : baseAxialStiffness (stored sz st c) .initial 0 = some k)
    (h' : baseAxialStiffness (stored sz' st' c) .initial 0 = some k') : k ≤ k' := by
  have e : ∀ s t : ℝ, ((stored s t c).map (fun q => |q.2|)).sum = ((c.1.zip c.2).map (fun q => |q.2|)).sum * |t| := by
    intro s t
    rw [← List.sum_map_mul_right, stored, List.map_map]
    congr 2
    funext q
    simp [abs_mul]
  unfold baseAxialStiffness at h h'
  rw [e] at h h'
  by_cases hs : ((c.1.zip c.2).map (fun q => |q.2|)).sum * |st| = 0
  · rw [if_pos hs, Option.some.injEq] at h
    rw [← h]
    split_ifs at h'
    · exact (Option.some.inj h').le
    · exact axial_nonneg h'
  · have hst : 0 < |st| := lt_of_le_of_ne (abs_nonneg _) (Ne.symm (right_ne_zero_of_mul hs))
    rw [if_neg hs] at h
    rw [if_neg (mul_ne_zero (left_ne_zero_of_mul hs) (hst.trans_le h1).ne')] at h'
    exact axial_mono h1 h2 h3 h h'

theorem abs_mul_mono {a b ct : ℝ} (h0 : 0 ≤ a) (h1 : a ≤ b) : |a * ct| ≤ |b * ct| := by
  rw [abs_mul, abs_mul, abs_of_nonneg h0, abs_of_nonneg (h0.trans h1)]
  gcongr

/-! ### other multipliers in every layer -/

/-- A layer with other multipliers. -/
def raise (f : SoilLayer → Factors) (l : SoilLayer) : SoilLayer :=
  { l with lateral := l.lateral.map (withP ((f l).p, (f l).y)), axial := l.axial.map (withT (f l)) }

/-- A profile with other multipliers. -/
def raised (f : SoilLayer → Factors) (sp : SoilProfile) : SoilProfile := { sp with layers := sp.layers.map (raise f) }

theorem raised_geometry (f : SoilLayer → Factors) (sp : SoilProfile) : (raised f sp).geometry = sp.geometry := by
  simp [raised, SoilProfile.geometry, Function.comp_def, raise]

theorem input_raised (f : SoilLayer → Factors) {p : Pile.Pile ℝ} {sp : SoilProfile} {x2mesh : List ℝ} {c : ℝ} {w : Switches}
    {table : List (ℝ × Pile.Section ℝ)} {S : Input} (h : input p sp x2mesh c w table = some S) :
    input p (raised f sp) x2mesh c w table = some { S with layers := S.layers.map (raise f) } := by
  unfold input at h ⊢
  rw [raised_geometry]
  simp only [Option.bind_eq_bind, Option.bind_eq_some_iff, Option.pure_def, Option.some.injEq] at h ⊢
  obtain ⟨rows, h1, tip, h2, area, h3, fp, h4, rfl⟩ := h
  exact ⟨rows, h1, tip, h2, area, h3, fp, h4, rfl⟩

theorem owners_raised (f : SoilLayer → Factors) (S : Input) (r : Row) :
    owners { S with layers := S.layers.map (raise f) } r = (owners S r).map (raise f) := by
  unfold owners
  simp only [List.filter_map]
  rfl

/-- At every depth the multipliers of the resistances are at least the present ones, which are not negative, and those of the
displacements are positive and at most the present ones. -/
structure Higher (f : SoilLayer → Factors) (layers : List SoilLayer) : Prop where
  lateral : ∀ l ∈ layers, ∀ m, l.lateral = some m → ∀ X, 0 ≤ X →
    (∀ pm pm', m.multipliers.1.val X = some pm → (f l).p.val X = some pm' → 0 ≤ pm ∧ pm ≤ pm') ∧
    ∀ ym ym', m.multipliers.2.1.val X = some ym → (f l).y.val X = some ym' → 0 < ym' ∧ ym' ≤ ym
  shaft : ∀ l ∈ layers, ∀ m, l.axial = some m → 0 ≤ (axialFactors m).1 ∧ (axialFactors m).1 ≤ (f l).t ∧
    0 < (f l).z ∧ (f l).z ≤ (axialFactors m).2.1
  tip : ∀ l ∈ layers, ∀ m, l.axial = some m → 0 ≤ (axialFactors m).2.2.1 ∧ (axialFactors m).2.2.1 ≤ (f l).q ∧
    0 < (f l).w ∧ (f l).w ≤ (axialFactors m).2.2.2

/-- The springs become at least as stiff, those that resist rotation along the shaft left aside. -/
theorem springs_raised_off {p : Pile.Pile ℝ} {sp : SoilProfile} {x2mesh : List ℝ} {c top tip : ℝ}
    (h : Weight.Setup p sp.geometry x2mesh c top tip) (w : Switches)
    (table : List (ℝ × Pile.Section ℝ)) (env : Draws) (f : SoilLayer → Factors) (hf : Higher f sp.layers) {A A' : Arrays}
    (hA : modelSprings p sp x2mesh c w table env = some A) (hA' : modelSprings p (raised f sp) x2mesh c w table env = some A')
    {C : Coordinates ℝ} (hC : getCoordinates p (some sp.geometry) x2mesh c = some C) :
    StifferSprings { w with distributedMoment := false } { w with distributedMoment := false } A A' C.elements.length := by
  obtain ⟨C', S, water, hC', hS, -, -, hlay, -, -, -, helts, hrows, r₀, hr₀, hg₀⟩ := C54_mesh h w table
  rw [hC] at hC'
  cases hC'
  have hS' := input_raised f hS
  unfold modelSprings at hA hA'
  rw [hS] at hA
  rw [hS'] at hA'
  simp only [Option.bind_eq_bind, Option.bind_some] at hA hA'
  set S' : Input := { S with layers := S.layers.map (raise f) } with hSdef
  have hlen : C.elements.length = S.rows.length := by rw [← helts, List.length_map]
  have own : ∀ r, owners S' r = (owners S r).map (raise f) := owners_raised f S
  have hmemL : ∀ {r : Row} {l : SoilLayer}, owners S r = [l] → l ∈ sp.layers := by
    intro r l hl
    have : l ∈ owners S r := by rw [hl]; exact List.mem_singleton.2 rfl
    rw [← hlay]
    exact List.mem_of_mem_filter this
  have one : ∀ r ∈ S.rows, owners S r = [] ∨ ∃ l, owners S r = [l] := by
    intro r hr
    obtain ⟨-, -, h3, h4⟩ := hrows r hr
    rcases le_or_gt r.top sp.topElevation with hle | hlt
    · exact .inr (h3 hle).1
    · exact .inl (h4 hlt)
  have py : ∀ e < C.elements.length, ∀ b k k', pyStiffness (A.py e b) .initial 0 = some k →
      pyStiffness (A'.py e b) .initial 0 = some k' → k ≤ k' := by
    intro e he b k k' hk hk'
    rw [hlen] at he
    have hr : S.rows[e]? = some S.rows[e] := List.getElem?_eq_getElem he
    have hr' : S'.rows[e]? = some S.rows[e] := hr
    rcases one _ (List.getElem_mem he) with ho | ⟨l, hl⟩
    · have ho' : owners S' S.rows[e] = [] := by rw [own, ho]; rfl
      rw [(C54_outside hA hr ho b).1] at hk
      rw [(C54_outside hA' hr' ho' b).1, hk, Option.some.injEq] at hk'
      exact hk'.le
    · have hl' : owners S' S.rows[e] = [raise f l] := by rw [own, hl]; rfl
      obtain ⟨p1, p2⟩ := C54_py hA hr hl b
      obtain ⟨p1', p2'⟩ := C54_py hA' hr' hl' b
      have eq0 : A.py e b = List.replicate 15 (0, 0) → A'.py e b = List.replicate 15 (0, 0) → k ≤ k' := by
        intro e1 e2
        rw [e1] at hk
        rw [e2, hk, Option.some.injEq] at hk'
        exact hk'.le
      rcases hd : S.distributedLateral with _ | _
      · exact eq0 (p2 (.inr hd)) (p2' (.inr hd))
      rcases hm : l.lateral with _ | m
      · exact eq0 (p2 (.inl hm)) (p2' (.inl (by simp [raise, hm])))
      obtain ⟨sig, s, q1, q2, q3⟩ := p1 m hm hd
      obtain ⟨sig', s', q1', q2', q3'⟩ := p1' (withP ((f l).p, (f l).y) m) (by simp [raise, hm]) hd
      rw [q1, Option.some.injEq] at q1'
      rw [q2, Option.some.injEq] at q2'
      subst q1' q2'
      obtain ⟨base, ym, pm, ym', pm', ⟨v1, u1⟩, ⟨v2, u2⟩, v3, v4⟩ := withP_py q3 q3'
      obtain ⟨o1, o2⟩ := (hf.lateral l (hmemL hl) m hm _ (abs_nonneg _)).1 pm pm' v1 v2
      obtain ⟨o3, o4⟩ := (hf.lateral l (hmemL hl) m hm _ (abs_nonneg _)).2 ym ym' u1 u2
      rw [v3] at hk
      rw [v4] at hk'
      exact slope_mono o1 o2 o3 o4 hk hk'
  have same : ∀ (g : Option ℝ) (k k' : ℝ), g = some k → g = some k' → k ≤ k' := fun g k k' h h' =>
    (Option.some.inj (h.symm.trans h')).le
  have tz : ∀ e < C.elements.length, ∀ b k k', tzStiffness (A.tz e b) .initial 0 = some k →
      tzStiffness (A'.tz e b) .initial 0 = some k' → k ≤ k' := by
    intro e he b k k' hk hk'
    rw [hlen] at he
    have hr : S.rows[e]? = some S.rows[e] := List.getElem?_eq_getElem he
    have hr' : S'.rows[e]? = some S.rows[e] := hr
    rcases one _ (List.getElem_mem he) with ho | ⟨l, hl⟩
    · have ho' : owners S' S.rows[e] = [] := by rw [own, ho]; rfl
      rw [(C54_outside hA hr ho b).2.1] at hk
      rw [(C54_outside hA' hr' ho' b).2.1] at hk'
      exact same _ _ _ hk hk'
    · have hl' : owners S' S.rows[e] = [raise f l] := by rw [own, hl]; rfl
      obtain ⟨p1, p2, p3⟩ := C54_tz hA hr hl b
      obtain ⟨p1', p2', p3'⟩ := C54_tz hA' hr' hl' b
      rcases hd : S.distributedAxial with _ | _
      · rw [p3 (.inr hd)] at hk
        rw [p3' (.inr hd)] at hk'
        exact same _ _ _ hk hk'
      rcases hm : l.axial with _ | m
      · rw [p3 (.inl hm)] at hk
        rw [p3' (.inl (by simp [raise, hm]))] at hk'
        exact same _ _ _ hk hk'
      obtain ⟨o1, o2, o3, o4⟩ := hf.shaft l (hmemL hl) m hm
      rcases m with m | m
      · obtain ⟨sig, s, cc, q1, q2, q3, q4⟩ := p1 m hm hd
        obtain ⟨sig', s', cc', q1', q2', q3', q4'⟩ := p1' _ (by simp only [raise, hm, Option.map_some, withT]; rfl) hd
        rw [q1, Option.some.injEq] at q1'
        rw [q2, Option.some.injEq] at q2'
        subst q1' q2'
        simp only [Axial.ClayAxial.tzSpring, Option.bind_eq_bind, Option.bind_eq_some_iff, Option.pure_def,
          Option.some.injEq] at q3 q3'
        obtain ⟨Su, a1, ct, a2, base, a3, rfl⟩ := q3
        obtain ⟨Su', a1', ct', a2', base', a3', rfl⟩ := q3'
        have b1 : Su = Su' := Option.some.inj (a1.symm.trans a1')
        subst b1
        have b2 : ct = ct' := Option.some.inj (a2.symm.trans a2')
        subst b2
        have b3 : base = base' := Option.some.inj (a3.symm.trans a3')
        subst b3
        rw [q4, stored_eq] at hk
        rw [q4', stored_eq] at hk'
        exact tz_mono (abs_mul_mono o1 o2) o3 o4 hk hk'
      · obtain ⟨sig, s, cc, q1, q2, q3, q4⟩ := p2 m hm hd
        obtain ⟨sig', s', cc', q1', q2', q3', q4'⟩ := p2' _ (by simp only [raise, hm, Option.map_some, withT]; rfl) hd
        rw [q1, Option.some.injEq] at q1'
        rw [q2, Option.some.injEq] at q2'
        subst q1' q2'
        simp only [Axial.SandAxial.tzSpring, Option.bind_eq_bind, Option.bind_eq_some_iff, Option.pure_def,
          Option.some.injEq] at q3 q3'
        obtain ⟨Su, a1, ct, a2, base, a3, rfl⟩ := q3
        obtain ⟨Su', a1', ct', a2', base', a3', rfl⟩ := q3'
        have b1 : Su = Su' := Option.some.inj (a1.symm.trans a1')
        subst b1
        have b2 : ct = ct' := Option.some.inj (a2.symm.trans a2')
        subst b2
        have b3 : base = base' := Option.some.inj (a3.symm.trans a3')
        subst b3
        rw [q4, stored_eq] at hk
        rw [q4', stored_eq] at hk'
        exact tz_mono (abs_mul_mono o1 o2) o3 o4 hk hk'
  -- the tip
  have hrm : r₀ ∈ S.rows := List.mem_of_getLast? hr₀.last
  obtain ⟨hp₀, -, h3, -⟩ := hrows r₀ hrm
  obtain ⟨⟨l, hl⟩, -⟩ := h3 hg₀
  have hl' : owners S' r₀ = [raise f l] := by rw [own, hl]; rfl
  have hr₀' : TipRow S' r₀ := ⟨hr₀.last, hr₀.tip, hr₀.lowest⟩
  have hb : A'.hb = A.hb := by
    obtain ⟨p1, p2⟩ := C47_hb_partial hA hr₀ hp₀.le hl
    obtain ⟨p1', p2'⟩ := C47_hb_partial hA' hr₀' hp₀.le hl'
    rcases hd : S.baseShear with _ | _
    · rw [p2 (.inr (.inl hd)), p2' (.inr (.inl hd))]
    rcases hm : l.lateral with _ | m
    · rw [p2 (.inl hm), p2' (.inl (by simp [raise, hm]))]
    have hm' : (raise f l).lateral = some (withP ((f l).p, (f l).y) m) := by simp [raise, hm]
    rcases hsg : m.signature.2.1 with _ | _
    · rw [p2 (.inr (.inr ⟨m, hm, hsg⟩)), p2' (.inr (.inr ⟨_, hm', by rw [withP_signature, hsg]⟩))]
    obtain ⟨sig, s, q1, q2, q3⟩ := p1 m hm hsg hd
    obtain ⟨sig', s', q1', q2', q3'⟩ := p1' _ hm' (by rw [withP_signature, hsg]) hd
    rw [q1, Option.some.injEq] at q1'
    rw [q2, Option.some.injEq] at q2'
    subst q1' q2'
    rw [withP_hb] at q3'
    exact Option.some.inj (q3'.symm.trans q3)
  have mb : A'.mb = A.mb := by
    obtain ⟨p1, p2⟩ := C47_mb_partial hA hr₀ hp₀.le hl
    obtain ⟨p1', p2'⟩ := C47_mb_partial hA' hr₀' hp₀.le hl'
    rcases hd : S.baseMoment with _ | _
    · rw [p2 (.inr (.inl hd)), p2' (.inr (.inl hd))]
    rcases hm : l.lateral with _ | m
    · rw [p2 (.inl hm), p2' (.inl (by simp [raise, hm]))]
    have hm' : (raise f l).lateral = some (withP ((f l).p, (f l).y) m) := by simp [raise, hm]
    rcases hsg : m.signature.2.2.2 with _ | _
    · rw [p2 (.inr (.inr ⟨m, hm, hsg⟩)), p2' (.inr (.inr ⟨_, hm', by rw [withP_signature, hsg]⟩))]
    obtain ⟨sig, s, q1, q2, q3⟩ := p1 m hm hsg hd
    obtain ⟨sig', s', q1', q2', q3'⟩ := p1' _ hm' (by rw [withP_signature, hsg]) hd
    rw [q1, Option.some.injEq] at q1'
    rw [q2, Option.some.injEq] at q2'
    subst q1' q2'
    rw [withP_mb] at q3'
    exact Option.some.inj (q3'.symm.trans q3)
  have qz : ∀ k k', baseAxialStiffness A.qz .initial 0 = some k → baseAxialStiffness A'.qz .initial 0 = some k' → k ≤ k' := by
    intro k k' hk hk'
    obtain ⟨p1, p2, p3⟩ := C47_qz hA hr₀ hp₀.le hl
    obtain ⟨p1', p2', p3'⟩ := C47_qz hA' hr₀' hp₀.le hl'
    rcases hd : S.baseAxial with _ | _
    · rw [p3 (.inr hd)] at hk
      rw [p3' (.inr hd)] at hk'
      exact same _ _ _ hk hk'
    rcases hm : l.axial with _ | m
    · rw [p3 (.inl hm)] at hk
      rw [p3' (.inl (by simp [raise, hm]))] at hk'
      exact same _ _ _ hk hk'
    obtain ⟨o1, o2, o3, o4⟩ := hf.tip l (hmemL hl) m hm
    rcases m with m | m
    · obtain ⟨s, cc, q2, q3, q4⟩ := p1 m hm hd
      obtain ⟨s', cc', q2', q3', q4'⟩ := p1' _ (by simp only [raise, hm, Option.map_some, withT]; rfl) hd
      rw [q2, Option.some.injEq] at q2'
      subst q2'
      simp only [Axial.ClayAxial.qzSpring, Option.bind_eq_bind, Option.bind_eq_some_iff, Option.pure_def,
        Option.some.injEq] at q3 q3'
      obtain ⟨Su, a1, base, a3, rfl⟩ := q3
      obtain ⟨Su', a1', base', a3', rfl⟩ := q3'
      have b1 : Su = Su' := Option.some.inj (a1.symm.trans a1')
      subst b1
      have b3 : base = base' := Option.some.inj (a3.symm.trans a3')
      subst b3
      rw [q4, stored_eq] at hk
      rw [q4', stored_eq] at hk'
      exact qz_mono (abs_mul_mono o1 o2) o3 o4 hk hk'
    · obtain ⟨sig, s, cc, q1, q2, q3, q4⟩ := p2 m hm hd
      obtain ⟨sig', s', cc', q1', q2', q3', q4'⟩ := p2' _ (by simp only [raise, hm, Option.map_some, withT]; rfl) hd
      rw [q1, Option.some.injEq] at q1'
      rw [q2, Option.some.injEq] at q2'
      subst q1' q2'
      simp only [Axial.SandAxial.qzSpring, Option.bind_eq_bind, Option.bind_eq_some_iff, Option.pure_def,
        Option.some.injEq] at q3 q3'
      obtain ⟨Su, a1, base, a3, rfl⟩ := q3
      obtain ⟨Su', a1', base', a3', rfl⟩ := q3'
      have b1 : Su = Su' := Option.some.inj (a1.symm.trans a1')
      subst b1
      have b3 : base = base' := Option.some.inj (a3.symm.trans a3')
      subst b3
      rw [q4, stored_eq] at hk
      rw [q4', stored_eq] at hk'
      exact qz_mono (abs_mul_mono o1 o2) o3 o4 hk hk'
  refine ⟨fun g => ⟨g, py⟩, fun g => ⟨g, tz⟩, fun g => ?_, fun g => ⟨g, ?_⟩, fun g => ⟨g, ?_⟩, fun g => ⟨g, qz⟩⟩
  · cases g
  · rw [hb]
    exact same _
  · rw [mb]
    exact same _

/-- The springs become at least as stiff. -/
theorem springs_raised {p : Pile.Pile ℝ} {sp : SoilProfile} {x2mesh : List ℝ} {c top tip : ℝ}
    (h : Weight.Setup p sp.geometry x2mesh c top tip) (w : Switches) (hw : w.distributedMoment = false)
    (table : List (ℝ × Pile.Section ℝ)) (env : Draws) (f : SoilLayer → Factors) (hf : Higher f sp.layers) {A A' : Arrays}
    (hA : modelSprings p sp x2mesh c w table env = some A) (hA' : modelSprings p (raised f sp) x2mesh c w table env = some A')
    {C : Coordinates ℝ} (hC : getCoordinates p (some sp.geometry) x2mesh c = some C) :
    StifferSprings w w A A' C.elements.length := by
  have e : { w with distributedMoment := false } = w := by
    cases w
    simp only at hw
    rw [hw]
  have := springs_raised_off h w table env f hf hA hA' hC
  rwa [e] at this

/-! ### in the tables -/

/-- The two analyses of C119, on the springs that they make. -/
theorem analyses {ty : ElementType} {p : Pile.Pile ℝ} {sp : SoilProfile} {x2mesh : List ℝ} {c : ℝ} {w : Switches}
    {table : List (ℝ × Pile.Section ℝ)} {env : Draws} {f : SoilLayer → Factors} {bcs : List (Cond ℝ)} {r r' : SoilResult}
    {C : Coordinates ℝ} (hC : getCoordinates p (some sp.geometry) x2mesh c = some C)
    (ht : solveSoil ty p sp x2mesh c w table env bcs = some r)
    (ht' : solveSoil ty p (raised f sp) x2mesh c w table env bcs = some r') :
    ∃ A A', modelSprings p sp x2mesh c w table env = some A ∧ modelSprings p (raised f sp) x2mesh c w table env = some A' ∧
      solveSoilOn ty p C w A bcs 100 = some r ∧ solveSoilOn ty p C w A' bcs 100 = some r' := by
  unfold solveSoil at ht ht'
  rw [raised_geometry] at ht'
  simp only [hC, Option.bind_eq_bind, Option.bind_some, Option.bind_eq_some_iff] at ht ht'
  obtain ⟨A, hA, ht⟩ := ht
  obtain ⟨A', hA', ht'⟩ := ht'
  exact ⟨A, A', hA, hA', ht, ht'⟩

/-- **C119 (partial).** A Model and the Model with higher multipliers of the resistances and lower multipliers of the
displacements in its layers, loaded and supported by the same calls.  While the springs stay on their first branch, the loads do at most the work they do with the first multipliers, up to the
reported residuals times the sizes of the displacements.  Partial: first branch only, and without rotational springs along the
shaft. -/
theorem C119_partial {ty : ElementType} {p : Pile.Pile ℝ} {sp : SoilProfile} {x2mesh : List ℝ} {c top tip : ℝ}
    (h : Weight.Setup p sp.geometry x2mesh c top tip) (hp : Accepted ty p top tip) {w : Switches}
    (hw : w.distributedMoment = false) {table : List (ℝ × Pile.Section ℝ)} {env : Draws} {f : SoilLayer → Factors}
    (hf : Higher f sp.layers) {calls : List (Call ℝ)} (hc : ∀ k ∈ calls, Spec.BC.kind k ≠ .displacement) {t t' : SoilTables}
    (ht : solveSoil ty p sp x2mesh c w table env (run [] calls) = some (.numbers t))
    (ht' : solveSoil ty p (raised f sp) x2mesh c w table env (run [] calls) = some (.numbers t'))
    (first : ∀ C A, getCoordinates p (some sp.geometry) x2mesh c = some C → modelSprings p sp x2mesh c w table env = some A →
      OnFirstBranch w A C.elements.length (t.disp.map (·.2)))
    (first' : ∀ C A, getCoordinates p (some sp.geometry) x2mesh c = some C →
      modelSprings p (raised f sp) x2mesh c w table env = some A → OnFirstBranch w A C.elements.length (t'.disp.map (·.2))) :
    ∃ C g, getCoordinates p (some sp.geometry) x2mesh c = some C ∧ globalForces C.nodes (run [] calls) = .ok g ∧
      -(extent t'.disp * t'.error) ≤ virtualWork g t'.disp ∧
      virtualWork g t'.disp ≤ virtualWork g t.disp + extent t'.disp * t'.error
        + (2 * extent t'.disp + extent t.disp) * t.error := by
  obtain ⟨C, hC, hm⟩ := NoModels.meshOn_setup h
  obtain ⟨A, A', hA, hA', s, s'⟩ := analyses hC ht ht'
  have hh := Compliance.moreHeld_calls C.nodes calls [] hc (fun k hk => by cases hk)
  rw [List.append_nil] at hh
  obtain ⟨g, hg, h1, h2⟩ := C116_tables_partial ty ty p p top tip hp hp (SoilSupport.stiffer_refl Real.pi ty hp.stack) C hm hm _ _
    hh w w A A' (springs_raised h w hw table env f hf hA hA' hC) (.inl hw) (.inl hw) t t' s s' (first C A hC hA)
    (first' C A' hC hA')
  exact ⟨C, g, hC, hg, h1, h2⟩

/-- **C119, for a single lateral load (partial).** The loaded node moves at most as far as with the first multipliers, up to
the reported residuals times the sizes of the displacements over the load. -/
theorem C119_deflection_partial {ty : ElementType} {p : Pile.Pile ℝ} {sp : SoilProfile} {x2mesh : List ℝ} {c top tip : ℝ}
    (h : Weight.Setup p sp.geometry x2mesh c top tip) (hp : Accepted ty p top tip) {w : Switches}
    (hw : w.distributedMoment = false) {table : List (ℝ × Pile.Section ℝ)} {env : Draws} {f : SoilLayer → Factors}
    (hf : Higher f sp.layers) {calls : List (Call ℝ)} (hc : ∀ k ∈ calls, Spec.BC.kind k ≠ .displacement) {t t' : SoilTables}
    (ht : solveSoil ty p sp x2mesh c w table env (run [] calls) = some (.numbers t))
    (ht' : solveSoil ty p (raised f sp) x2mesh c w table env (run [] calls) = some (.numbers t'))
    (first : ∀ C A, getCoordinates p (some sp.geometry) x2mesh c = some C → modelSprings p sp x2mesh c w table env = some A →
      OnFirstBranch w A C.elements.length (t.disp.map (·.2)))
    (first' : ∀ C A, getCoordinates p (some sp.geometry) x2mesh c = some C →
      modelSprings p (raised f sp) x2mesh c w table env = some A → OnFirstBranch w A C.elements.length (t'.disp.map (·.2)))
    {C : Coordinates ℝ} (hC : getCoordinates p (some sp.geometry) x2mesh c = some C) {g : Nodal ℤ}
    (hg : globalForces C.nodes (run [] calls) = .ok g) {i : ℕ} {H : ℤ} (hH : 0 < H) (hone : OneLoad C.nodes.length g i H) :
    ∃ x u u', C.nodes[i]? = some x ∧ (∃ a b, t.disp[i]? = some (x, a, u, b)) ∧ (∃ a b, t'.disp[i]? = some (x, a, u', b)) ∧
      -(extent t'.disp * t'.error / H) ≤ u' ∧
      u' ≤ u + (extent t'.disp * t'.error + (2 * extent t'.disp + extent t.disp) * t.error) / H := by
  obtain ⟨C', hC', hm⟩ := NoModels.meshOn_setup h
  rw [hC] at hC'
  cases hC'
  obtain ⟨A, A', hA, hA', s, s'⟩ := analyses hC ht ht'
  exact C116_deflection_partial ty p top tip hp C hm calls hc w w A A' (springs_raised h w hw table env f hf hA hA' hC) (.inl hw)
    (.inl hw) t t' s s' (first C A hC hA) (first' C A' hC hA') g hg i H hH hone

/-! ### concrete cases -/

open OpenPile.Props.Creation (tube soil created)
open OpenPile.Props.Assemble (axialExample drawsExample setup_example)

/-- Clay of 40 kPa with multipliers 1; the p-multiplier becomes 2 and more further down, the y-multiplier one half. -/
noncomputable def softClay : MatlockClay := ⟨.api, .scalar 40, .scalar (1 / 100), 1 / 4, .static, .num 1, .num 1, false⟩

noncomputable def deeper : SoilLayer → Factors := fun _ => ⟨.func (fun X => some (2 + X)), .num (1 / 2), 2, 1 / 2, 3, 1 / 2⟩

noncomputable def stiffAxial : Axial.ClayAxial := { axialExample with tMul := 2, zMul := 1 / 2, qMul := 3, wMul := 1 / 2 }

/-- The tube in that clay and in the clay with the higher multipliers: both Models are created, and the springs of the second are
at least as stiff. -/
example (w : Switches) (hw : w.distributedMoment = false) :
    ∃ C A A', getCoordinates tube (some (soil (.matlock softClay)).geometry) [] 1 = some C ∧
      modelSprings tube (soil (.matlock softClay)) [] 1 w (Model.stableRows tube) drawsExample = some A ∧
      modelSprings tube (raised deeper (soil (.matlock softClay))) [] 1 w (Model.stableRows tube) drawsExample = some A' ∧
      StifferSprings w w A A' C.elements.length := by
  have s1 : Spec.Sound.Lateral 2 10 (.matlock softClay) :=
    ⟨⟨_, _, .scalar _, by norm_num, by norm_num⟩, ⟨_, _, .scalar _, by norm_num, by norm_num⟩, by norm_num [softClay],
      trivial, trivial⟩
  have s2 : Spec.Sound.Lateral 2 10 (.matlock { softClay with p := .func (fun X => some (2 + X)), y := .num (1 / 2) }) :=
    ⟨⟨_, _, .scalar _, by norm_num, by norm_num⟩, ⟨_, _, .scalar _, by norm_num, by norm_num⟩, by norm_num [softClay],
      fun X _ => ⟨_, rfl⟩, trivial⟩
  obtain ⟨C, S, -, -, -, A, hC, hS, -, -, -, -, -, -, -, -, hA⟩ := created s1 w
  have hSu : ∀ d, Params.layered stiffAxial.Su d (0 - -20) = some 50 := by
    intro d
    norm_num [stiffAxial, axialExample, Params.layered, Params.topBottom]
  obtain ⟨-, S', -, -, -, A', -, hS', -, -, -, -, -, -, -, -, hA'⟩ := Capacity.C64_setup (env := drawsExample)
    (setup_example (some (.matlock { softClay with p := .func (fun X => some (2 + X)), y := .num (1 / 2) }))
      (some (.clay stiffAxial))) w (table := Model.stableRows tube) ⟨Py.sortedBy_perm _ _, Py.sortedBy_pairwise _ _⟩
    Capacity.good_draws.1 Capacity.good_draws.2 Capacity.good_lateral
    (by
      intro l hl m hm
      simp only [List.mem_singleton] at hl
      subst hl
      cases hm
      refine ⟨fun d _ _ => ⟨50, hSu d, by norm_num⟩, ?_, ?_, ?_, ?_, ?_⟩ <;> norm_num [stiffAxial, axialExample])
    (by
      intro l hl m' hm' s hs
      simp only [List.mem_singleton] at hl hs
      subst hl hs
      cases hm'
      norm_num
      exact s2)
  have e : modelSprings tube (soil (.matlock softClay)) [] 1 w (Model.stableRows tube) drawsExample = some A := by
    rw [modelSprings, hS]; exact hA
  have e' : modelSprings tube (raised deeper (soil (.matlock softClay))) [] 1 w (Model.stableRows tube) drawsExample = some A' := by
    have : raised deeper (soil (.matlock softClay)) = ⟨0, -1, [⟨⟨0, -20, 18⟩,
      some (.matlock { softClay with p := .func (fun X => some (2 + X)), y := .num (1 / 2) }), some (.clay stiffAxial)⟩]⟩ := rfl
    rw [this, modelSprings]
    erw [hS']
    exact hA'
  refine ⟨C, A, A', hC, e, e', springs_raised (setup_example _ _) w hw _ _ deeper ?_ e e' hC⟩
  refine ⟨fun l hl m hm X hX => ?_, fun l hl m hm => ?_, fun l hl m hm => ?_⟩
  · simp only [List.mem_singleton] at hl
    subst hl
    cases hm
    refine ⟨fun pm pm' h1 h2 => ?_, fun ym ym' h1 h2 => ?_⟩ <;>
      simp only [Model.multipliers, softClay, deeper, Mult.val, Option.some.injEq] at h1 h2 <;> subst h1 h2
    · exact ⟨zero_le_one, by linarith⟩
    · norm_num
  · simp only [List.mem_singleton] at hl
    subst hl
    cases hm
    norm_num [axialFactors, axialExample, deeper]
  · simp only [List.mem_singleton] at hl
    subst hl
    cases hm
    norm_num [axialFactors, axialExample, deeper]

/-- A loaded pile in a profile without soil models, where the multipliers change nothing: the hypotheses of the theorem on
analyses are met. -/
example (w : Switches) (hw : w.distributedMoment = false) (table : List (ℝ × Pile.Section ℝ)) (env : Draws) :
    ∃ (t t' : SoilTables) (C : Coordinates ℝ) (g : Nodal ℤ), solveSoil .timoshenko NoModels.pileN NoModels.soilN [] 1 w table env
        (run [] [.pointload 1 (some 100) none none, .support (-10) (some true) (some true) (some true)]) = some (.numbers t) ∧
      solveSoil .timoshenko NoModels.pileN (raised deeper NoModels.soilN) [] 1 w table env
        (run [] [.pointload 1 (some 100) none none, .support (-10) (some true) (some true) (some true)]) = some (.numbers t') ∧
      globalForces C.nodes (run [] [.pointload 1 (some 100) none none, .support (-10) (some true) (some true) (some true)])
        = .ok g ∧
      virtualWork g t'.disp ≤ virtualWork g t.disp + extent t'.disp * t'.error + (2 * extent t'.disp + extent t.disp) * t.error := by
  have hset : Weight.Setup NoModels.pileN NoModels.soilN.geometry [] 1 1 (-10) := Assemble.setup_example none none
  have hr : raised deeper NoModels.soilN = NoModels.soilN := rfl
  obtain ⟨t, ht, -⟩ := NoModels.solvedN w (fun h => by rw [hw] at h; cases h) table env
  have e : run [] [.pointload 1 (some 100) none none, .support (-10) (some true) (some true) (some true)] = NoModels.bcsN := by
    simp [run, BC.step, setPointload, setSupport, updateBc, Cond.isAt, NoModels.bcsN]
  obtain ⟨C, S, water, hC, hS, -, -, hlay, -⟩ := Assemble.C54_mesh hset w table
  obtain ⟨C', hC', hm⟩ := NoModels.meshOn_setup hset
  rw [hC] at hC'
  cases hC'
  have hA : modelSprings NoModels.pileN NoModels.soilN [] 1 w table env = some Arrays.zero := by
    unfold modelSprings
    rw [hS]
    exact NoModels.create_none (by rw [hlay]; simp [NoModels.soilN])
  have hacc : Accepted .timoshenko NoModels.pileN 1 (-10) := by
    refine ⟨⟨78, 210000000, 3 / 10, ?_⟩, fun _ => by norm_num [NoModels.pileN, Pile.steel], NoModels.stack_setup hset, ?_⟩
    · unfold Pile.mkMaterial
      norm_num [NoModels.pileN, Pile.steel]
    · intro s hs
      simp only [NoModels.pileN, List.mem_cons, List.not_mem_nil, or_false] at hs
      subst hs
      refine ⟨?_, by norm_num⟩
      rw [Pile.built_iff]
      norm_num
  have branch : ∀ (x : Switches) (r : SoilTables), x.distributedMoment = false →
      solveSoil .timoshenko NoModels.pileN NoModels.soilN [] 1 x table env NoModels.bcsN = some (.numbers r) →
      OnFirstBranch x Arrays.zero C.elements.length (r.disp.map (·.2)) := by
    intro x r hx hr
    obtain ⟨D, hD, e', -⟩ := NoModels.solveSoil_none .timoshenko hset (by simp [NoModels.soilN]) x table env NoModels.bcsN
    rw [hC] at hD
    cases hD
    rw [e'] at hr
    obtain ⟨z, el, F, U, R, g, gU, gR, u, Q, tolSq, resSq, n1, hz, -, -, -, -, -, -, -, -, -, htab, -⟩ :=
      Superpose.soil_read' (NoModels.stack_setup hset) hm hr
    obtain ⟨T, y, t2, -⟩ := tables_exact .timoshenko n1 z el u Q
    rw [hz] at htab
    obtain rfl : T = r.toTables := Option.some.inj (y.symm.trans htab)
    obtain ⟨z1, z2, z3, z4⟩ := NoModels.zeros_sums
    refine ⟨u, by rw [t2, List.map_ofFn]; rfl, ⟨⟨fun _ _ _ => .inl z1, fun _ _ _ => .inl z3, rfl, fun _ => .inl z2,
      fun _ => .inl z2, fun _ => .inl z4⟩, fun h => ?_⟩⟩
    rw [show (springsOf x Arrays.zero C.elements.length).distributedMoment = x.distributedMoment from rfl, hx] at h
    cases h
  have fb : ∀ C' A, getCoordinates NoModels.pileN (some NoModels.soilN.geometry) [] 1 = some C' →
      modelSprings NoModels.pileN NoModels.soilN [] 1 w table env = some A →
      OnFirstBranch w A C'.elements.length (t.disp.map (·.2)) := by
    intro C' A h1 h2
    rw [hC] at h1
    rw [hA] at h2
    cases h1
    cases h2
    exact branch w t hw ht
  have ht₀ := ht
  rw [← e] at ht
  obtain ⟨D, g, -, hg, -, k⟩ := C119_partial (f := deeper) hset hacc hw
    ⟨(by intro l hl m hm; simp only [NoModels.soilN, List.mem_singleton] at hl; subst hl; cases hm),
      (by intro l hl m hm; simp only [NoModels.soilN, List.mem_singleton] at hl; subst hl; cases hm),
      (by intro l hl m hm; simp only [NoModels.soilN, List.mem_singleton] at hl; subst hl; cases hm)⟩
    (by simp [Spec.BC.kind]) ht (by rw [hr]; exact ht) fb (by rw [hr]; exact fb)
  exact ⟨t, t, D, g, ht, by rw [hr]; exact ht, hg, k⟩

end OpenPile.Props.Multiplied

/-
Property C103: a p-y curve for cyclic loading is nowhere above the curve for static loading.

`Weaker t t'`: the straight line interpolation of the table `t` is nowhere above that of `t'`.
-/
import Verif.Props.Stronger
import Verif.Lemmas.Axial
import Verif.Model.SoilModel

namespace OpenPile.Props.Cyclic
open OpenPile.Lateral OpenPile.Spring OpenPile.Props.Stronger

/-- The interpolation (`np.interp`) of one table is nowhere above that of the other. -/
def Weaker (t t' : List (ℝ × ℝ)) : Prop :=
  ∀ x v v', 0 ≤ x → interp x t = some v → interp x t' = some v' → v ≤ v'

/-! ### clay -/

theorem peak_ge : (1437 / 1000 / (1 + 2 / 100000) : ℝ) ≤ (3 : ℝ) ^ (33 / 100 : ℝ) :=
  le_rpow33 (by norm_num) (by norm_num)

theorem peak_gt : (1437 / 1000 : ℝ) ≤ (30002 / 10000 : ℝ) ^ (33 / 100 : ℝ) :=
  le_rpow33 (by norm_num) (by norm_num)

theorem peak_lt : (30001 / 10000 : ℝ) ^ (33 / 100 : ℝ) ≤ 14369999 / 10000000 :=
  rpow33_le (by norm_num) (by norm_num) (by norm_num)

/-- The cyclic law stays below its peak. -/
theorem cyclic_le_peak {Pu q0 c a r : ℝ} {deep : Prop} {q : ℝ × ℝ} (hP : 0 ≤ Pu) (hq : 0 < q0) (hc : 0 ≤ c)
    (ha : a < 15) (hr1 : ¬ deep → r ≤ 1) (h : CyclicLaw Pu q0 c a r deep q) (hx : a * q0 < q.1) : q.2 ≤ c * Pu := by
  have hcP : 0 ≤ c * Pu := mul_nonneg hc hP
  by_cases hd : deep
  · rw [h.plateau hd hx]
  · by_cases h15 : q.1 ≤ 15 * q0
    · rw [h.fall hd hx h15]
      have h1 : 0 ≤ (q.1 - a * q0) / ((15 - a) * q0) := by
        apply div_nonneg
        · linarith
        · exact mul_nonneg (by linarith) hq.le
      have h2 : 0 ≤ c * Pu - c * Pu * r := by nlinarith [hr1 hd]
      nlinarith [mul_nonneg h2 h1]
    · rw [h.residual hd (not_le.1 h15)]
      nlinarith [hr1 hd]

theorem static_ge {Pu q0 u b : ℝ} {q : ℝ × ℝ} (hP : 0 ≤ Pu) (hq : 0 < q0) (hu : 0 ≤ u) (hb : b ≤ u ^ (33 / 100 : ℝ))
    (hb2 : b ≤ 2) (h : StaticLaw Pu q0 q) (hx : u * q0 ≤ q.1) : b / 2 * Pu ≤ q.2 := by
  by_cases h8 : q.1 ≤ 8 * q0
  · rw [h.rise h8]
    have h1 : u ≤ q.1 / q0 := by rwa [le_div_iff₀ hq]
    have h2 := rpow33_mono hu h1
    nlinarith
  · rw [h.plateau (not_le.1 h8)]
    nlinarith

/-- One point of the cyclic law of API or Matlock against one point of the static law at a displacement at least as large. -/
theorem cyclic_static {Pu q0 r : ℝ} {deep : Prop} {q q' : ℝ × ℝ} (hP : 0 ≤ Pu) (hq0 : 0 < q0) (hr : ¬ deep → r ≤ 1)
    (h0 : 0 ≤ q.1) (hle : q.1 ≤ q'.1) (h : CyclicLaw Pu q0 (7185 / 10000) 3 r deep q) (h' : StaticLaw Pu q0 q') :
    q.2 ≤ (1 + 2 / 100000) * q'.2 ∧ ((q.1 ≤ 3 * q0 ∨ 30002 / 10000 * q0 ≤ q.1) → q.2 ≤ q'.2) := by
  have h'0 : 0 ≤ q'.2 := by
    have := static_ge hP hq0 (u := 0) (b := 0) le_rfl (by positivity) (by norm_num) h' (by linarith)
    simpa using this
  by_cases h3 : q.1 ≤ 3 * q0
  · have : q.2 ≤ q'.2 := by
      refine static_mono hP le_rfl hq0 le_rfl h0 hle (q := q) ⟨fun _ => h.rise h3, fun h8 => ?_⟩ h'
      linarith
    exact ⟨by linarith, fun _ => this⟩
  · have hp := cyclic_le_peak hP hq0 (by norm_num) (by norm_num) hr h (not_le.1 h3)
    constructor
    · have := static_ge hP hq0 (by norm_num) peak_ge (by norm_num) h' (by linarith)
      rw [div_div, div_mul_eq_mul_div, div_le_iff₀ (by norm_num)] at this
      linarith
    · rintro (hx | hx)
      · exact absurd hx h3
      · have := static_ge hP hq0 (by norm_num) peak_gt (by norm_num) h' (by linarith)
        linarith

theorem modified_static {Pu q0 r : ℝ} {deep : Prop} {q q' : ℝ × ℝ} (hP : 0 ≤ Pu) (hq0 : 0 < q0) (hr : ¬ deep → r ≤ 1)
    (h0 : 0 ≤ q.1) (hle : q.1 ≤ q'.1) (h : CyclicLaw Pu q0 (1 / 2) 1 r deep q) (h' : StaticLaw Pu q0 q') :
    q.2 ≤ q'.2 := by
  by_cases h3 : q.1 ≤ 1 * q0
  · refine static_mono hP le_rfl hq0 le_rfl h0 hle (q := q) ⟨fun _ => h.rise h3, fun h8 => ?_⟩ h'
    linarith
  · have hp := cyclic_le_peak hP hq0 (by norm_num) (by norm_num) hr h (not_le.1 h3)
    have := static_ge hP hq0 (u := 1) (b := 1) (by norm_num) (by rw [Real.one_rpow]) (by norm_num) h' (by linarith)
    linarith

/-- Two tables of API or Matlock clay for the same soil. -/
theorem clay_cyclic {n n' : ℕ} {sig X Su eps D J : ℝ} {l l' : List (ℝ × ℝ)} (hc : ClayData sig X Su eps D J)
    (h : ClayCurve .cyclic n sig X Su eps D J (7185 / 10000) 3 l) (h' : ClayCurve .static n' sig X Su eps D J (7185 / 10000) 3 l')
    {q q' : ℝ × ℝ} (hq : q ∈ l) (hq' : q' ∈ l') (hle : q.1 ≤ q'.1) :
    q.2 ≤ (1 + 2 / 100000) * q'.2 ∧
      ((q.1 ≤ 3 * (5 / 2 * eps * D) ∨ 30002 / 10000 * (5 / 2 * eps * D) ≤ q.1) → q.2 ≤ q'.2) := by
  obtain ⟨Xr, hT, H⟩ := h.law
  obtain ⟨_, _, H'⟩ := h'.law
  have hD := hc.D
  have he := hc.eps
  have hXr : 0 < Xr := lt_of_lt_of_le (by positivity) hT.shallow
  refine cyclic_static (clayUltimate_nonneg hc.sig hc.X hc.Su hD.le hc.J.le) (by positivity) ?_ (h.table.nonneg q hq).1 hle
    ((H q hq).2 rfl) ((H' q' hq').1 rfl)
  intro hd
  rw [div_le_one hXr]
  exact not_lt.1 hd

theorem modified_cyclic {n n' : ℕ} {sig X Su eps D J : ℝ} {l l' : List (ℝ × ℝ)} (hc : ClayData sig X Su eps D J)
    (h : ClayCurve .cyclic n sig X Su eps D J (1 / 2) 1 l) (h' : ClayCurve .static n' sig X Su eps D J (1 / 2) 1 l') :
    Outresists l l' := by
  intro q hq q' hq' hle
  obtain ⟨Xr, hT, H⟩ := h.law
  obtain ⟨_, _, H'⟩ := h'.law
  have hD := hc.D
  have he := hc.eps
  have hXr : 0 < Xr := lt_of_lt_of_le (by positivity) hT.shallow
  refine modified_static (clayUltimate_nonneg hc.sig hc.X hc.Su hD.le hc.J.le) (by positivity) ?_ (h.table.nonneg q hq).1 hle
    ((H q hq).2 rfl) ((H' q' hq').1 rfl)
  intro hd
  rw [div_le_one hXr]
  exact not_lt.1 hd


/-- `api_clay`: the cyclic resistance at a displacement exceeds the static one at a displacement at least as large by at most
0.002 %, and only between 3 and 3.0002 times `y50`. Lengths, ranges and random values of the two tables may differ. -/
theorem C103_api_clay_partial {sig X Su eps D J ymax ymax' : ℝ} {len len' : ℕ} {draws draws' : List ℝ} {l l' : List (ℝ × ℝ)}
    (hc : ClayData sig X Su eps D J) (hd : Draws (max 8 len) draws) (hd' : Draws (max 8 len') draws') (hy : 0 ≤ ymax)
    (hy' : 0 ≤ ymax') (h : apiClay sig X Su eps D J .cyclic ymax len draws = some l)
    (h' : apiClay sig X Su eps D J .static ymax' len' draws' = some l') :
    ∀ q ∈ l, ∀ q' ∈ l', q.1 ≤ q'.1 → q.2 ≤ (1 + 2 / 100000) * q'.2 ∧
      ((q.1 ≤ 3 * (5 / 2 * eps * D) ∨ 30002 / 10000 * (5 / 2 * eps * D) ≤ q.1) → q.2 ≤ q'.2) := by
  obtain ⟨_, e, k⟩ := C31_api_clay hc hd hy
  obtain ⟨_, e', k'⟩ := C31_api_clay hc hd' hy'
  rw [h, Option.some.injEq] at e
  rw [h', Option.some.injEq] at e'
  subst e e'
  exact fun q hq q' hq' hle => clay_cyclic hc k k' hq hq' hle

/-- The same for `matlock_1970`. -/
theorem C103_matlock_partial {sig X Su eps D J ymax ymax' : ℝ} {len len' : ℕ} {draws draws' : List ℝ} {l l' : List (ℝ × ℝ)}
    (hc : ClayData sig X Su eps D J) (hd : Draws (max 9 len) draws) (hd' : Draws (max 9 len') draws') (hy : 0 ≤ ymax)
    (hy' : 0 ≤ ymax') (h : matlock sig X Su eps D J .cyclic ymax len draws = some l)
    (h' : matlock sig X Su eps D J .static ymax' len' draws' = some l') :
    ∀ q ∈ l, ∀ q' ∈ l', q.1 ≤ q'.1 → q.2 ≤ (1 + 2 / 100000) * q'.2 ∧
      ((q.1 ≤ 3 * (5 / 2 * eps * D) ∨ 30002 / 10000 * (5 / 2 * eps * D) ≤ q.1) → q.2 ≤ q'.2) := by
  obtain ⟨_, e, k⟩ := C31_matlock hc hd hy
  obtain ⟨_, e', k'⟩ := C31_matlock hc hd' hy'
  rw [h, Option.some.injEq] at e
  rw [h', Option.some.injEq] at e'
  subst e e'
  exact fun q hq q' hq' hle => clay_cyclic hc k k' hq hq' hle

/-- `modified_Matlock`: the cyclic resistance is nowhere above the static one. -/
theorem C103_modified_matlock {sig X Su eps D J ymax ymax' : ℝ} {len len' : ℕ} {draws draws' : List ℝ} {l l' : List (ℝ × ℝ)}
    (hc : ClayData sig X Su eps D J) (hd : Draws (max 8 len) draws) (hd' : Draws (max 8 len') draws') (hy : 0 ≤ ymax)
    (hy' : 0 ≤ ymax') (h : modMatlock sig X Su eps D J .cyclic ymax len draws = some l)
    (h' : modMatlock sig X Su eps D J .static ymax' len' draws' = some l') : Outresists l l' := by
  obtain ⟨_, e, k⟩ := C31_modified_matlock hc hd hy
  obtain ⟨_, e', k'⟩ := C31_modified_matlock hc hd' hy'
  rw [h, Option.some.injEq] at e
  rw [h', Option.some.injEq] at e'
  subst e e'
  exact modified_cyclic hc k k'

/-! ### interpolation -/

/-- Tables with the same displacements. -/
def Below (l l' : List (ℝ × ℝ)) : Prop := List.Forall₂ (fun q q' => q.1 = q'.1 ∧ q.2 ≤ q'.2) l l'

theorem below_of : ∀ l l' : List (ℝ × ℝ), l.map Prod.fst = l'.map Prod.fst →
    (∀ q ∈ l, ∀ q' ∈ l', q.1 = q'.1 → q.2 ≤ q'.2) → Below l l'
  | [], [], _, _ => .nil
  | [], _ :: _, h, _ => by simp at h
  | _ :: _, [], h, _ => by simp at h
  | q :: l, q' :: l', h, H => by
    rw [List.map_cons, List.map_cons, List.cons.injEq] at h
    refine .cons ⟨h.1, H q (by simp) q' (by simp) h.1⟩ (below_of l l' h.2 fun a ha b hb => ?_)
    exact H a (List.mem_cons_of_mem _ ha) b (List.mem_cons_of_mem _ hb)

theorem below_interp (x : ℝ) : ∀ {l l' : List (ℝ × ℝ)}, Below l l' → ∀ v v', interp x l = some v → interp x l' = some v' → v ≤ v'
  | [], [], _, v, v', h, _ => by simp [interp] at h
  | [(a, f)], [(a', f')], H, v, v', h, h' => by
    rcases H with _ | ⟨⟨_, e⟩, _⟩
    simp only [interp, Option.some.injEq] at h h'
    rw [← h, ← h']
    exact e
  | [(a, f)], _ :: _ :: _, H, _, _, _, _ => by
    rcases H with _ | ⟨_, H⟩
    cases H
  | _ :: _ :: _, [(a, f)], H, _, _, _, _ => by
    rcases H with _ | ⟨_, H⟩
    cases H
  | (a, f) :: (b, g) :: R, (a', f') :: (b', g') :: R', H, v, v', h, h' => by
    have H2 := H
    rcases H with _ | ⟨⟨e1, e2⟩, H⟩
    have H3 := H
    rcases H with _ | ⟨⟨e3, e4⟩, H⟩
    simp only at e1 e2 e3 e4
    subst e1 e3
    rw [interp.eq_3] at h h'
    by_cases c1 : x < a
    · rw [if_pos c1, Option.some.injEq] at h h'
      linarith
    rw [if_neg c1] at h h'
    by_cases c2 : x < b
    · rw [if_pos c2, Option.some.injEq] at h h'
      rw [← h, ← h']
      have hb : 0 < b - a := by linarith [not_lt.1 c1]
      have t0 : 0 ≤ (x - a) / (b - a) := div_nonneg (by linarith [not_lt.1 c1]) hb.le
      have t1 : (x - a) / (b - a) ≤ 1 := by rw [div_le_one hb]; linarith
      have r1 : f + (g - f) / (b - a) * (x - a) = f * (1 - (x - a) / (b - a)) + g * ((x - a) / (b - a)) := by field_simp; ring
      have r2 : f' + (g' - f') / (b - a) * (x - a) = f' * (1 - (x - a) / (b - a)) + g' * ((x - a) / (b - a)) := by field_simp; ring
      rw [r1, r2]
      exact add_le_add (mul_le_mul_of_nonneg_right e2 (by linarith)) (mul_le_mul_of_nonneg_right e4 t0)
    · rw [if_neg c2] at h h'
      exact below_interp x H3 v v' h h'

theorem weaker_of_below {l l' : List (ℝ × ℝ)} (h : Below l l') : Weaker l l' :=
  fun x v v' _ e e' => below_interp x h v v' e e'

/-- Along a table whose secants do not increase, neither do those of its interpolation. -/
theorem star : ∀ (l : List (ℝ × ℝ)) (a f : ℝ), (((a, f) :: l).Pairwise fun q q' => q.1 < q'.1) →
    (((a, f) :: l).Pairwise fun q q' => q'.2 * q.1 ≤ q.2 * q'.1) → 0 ≤ a → (∀ q ∈ (a, f) :: l, 0 ≤ q.2) →
    ∀ x x' v v', a ≤ x → x ≤ x' → interp x ((a, f) :: l) = some v → interp x' ((a, f) :: l) = some v' → v' * x ≤ v * x'
  | [], a, f, _, _, ha, hp, x, x', v, v', h1, h2, e, e' => by
    simp only [interp, Option.some.injEq] at e e'
    rw [← e, ← e']
    exact mul_le_mul_of_nonneg_left h2 (hp (a, f) (by simp))
  | (b, g) :: R, a, f, hs, hr, ha, hp, x, x', v, v', h1, h2, e, e' => by
    have hab : a < b := (List.pairwise_cons.1 hs).1 (b, g) (by simp)
    have hfg : g * a ≤ f * b := (List.pairwise_cons.1 hr).1 (b, g) (by simp)
    have ih := star R b g (List.pairwise_cons.1 hs).2 (List.pairwise_cons.1 hr).2 (by linarith)
      (fun q hq => hp q (List.mem_cons_of_mem _ hq))
    have hba : 0 < b - a := by linarith
    have hα : 0 ≤ f - (g - f) / (b - a) * a := by
      have : f - (g - f) / (b - a) * a = (f * b - g * a) / (b - a) := by field_simp; ring
      rw [this]
      exact div_nonneg (by linarith) hba.le
    have hb : (g - f) / (b - a) * (b - a) = g - f := by field_simp
    rw [interp.eq_3, if_neg (not_lt.2 h1)] at e
    rw [interp.eq_3, if_neg (not_lt.2 (h1.trans h2))] at e'
    by_cases c : x < b
    · rw [if_pos c, Option.some.injEq] at e
      by_cases c' : x' < b
      · rw [if_pos c', Option.some.injEq] at e'
        rw [← e, ← e']
        nlinarith [mul_nonneg hα (sub_nonneg.2 h2)]
      · rw [if_neg c'] at e'
        have i1 := ih b x' g v' le_rfl (not_lt.1 c') (by
          cases R with
          | nil => rfl
          | cons r R => rw [interp.eq_3, if_neg (lt_irrefl _), if_pos ((List.pairwise_cons.1 (List.pairwise_cons.1 hs).2).1 r (by simp))]; simp) e'
        have i2 : g * x ≤ v * b := by
          rw [← e]
          nlinarith [mul_nonneg hα (sub_nonneg.2 c.le)]
        have hbp : 0 < b := by linarith
        have hx : 0 ≤ x := ha.trans h1
        have hx' : 0 ≤ x' := hx.trans h2
        have := mul_le_mul_of_nonneg_right i1 hx
        have := mul_le_mul_of_nonneg_right i2 hx'
        have : (v' * x) * b ≤ (v * x') * b := by linarith
        exact le_of_mul_le_mul_right this hbp
    · have c' : ¬ x' < b := fun h => c (h2.trans_lt h)
      rw [if_neg c] at e
      rw [if_neg c'] at e'
      exact ih x x' v v' (not_lt.1 c) h2 e e'

theorem weaker_scaled {l l' : List (ℝ × ℝ)} {s c : ℝ} (hs : 0 < s) (hc : 0 ≤ c) (h : Weaker l l') :
    Weaker (OpenPile.Axial.scaled s c l) (OpenPile.Axial.scaled s c l') := by
  intro x v v' hx e e'
  rw [OpenPile.Axial.interp_scaled s c hs, Option.map_eq_some_iff] at e e'
  obtain ⟨w, e, rfl⟩ := e
  obtain ⟨w', e', rfl⟩ := e'
  exact mul_le_mul_of_nonneg_right (h (x / s) w w' (by positivity) e e') hc

/-- A table stretched in both directions is nowhere below the original one. -/
theorem weaker_stretched {l : List (ℝ × ℝ)} {a f s : ℝ} (hs : 1 ≤ s) (h1 : ((a, f) :: l).Pairwise fun q q' => q.1 < q'.1)
    (h2 : ((a, f) :: l).Pairwise fun q q' => q'.2 * q.1 ≤ q.2 * q'.1) (ha : a = 0) (hp : ∀ q ∈ (a, f) :: l, 0 ≤ q.2) :
    Weaker ((a, f) :: l) (OpenPile.Axial.scaled s s ((a, f) :: l)) := by
  intro x v v' hx e e'
  have hs0 : 0 < s := by linarith
  rw [OpenPile.Axial.interp_scaled s s hs0, Option.map_eq_some_iff] at e'
  obtain ⟨w, e', rfl⟩ := e'
  have hle : x / s ≤ x := div_le_self hx hs
  rcases hx.eq_or_lt with h0 | h0
  · rw [← h0, zero_div] at e'
    rw [← h0, e', Option.some.injEq] at e
    rw [← e]
    obtain ⟨M, hM⟩ : ∃ M, ∀ q ∈ (a, f) :: l, q.2 ≤ M := by
      refine ⟨(((a, f) :: l).map Prod.snd).sum, fun q hq => List.single_le_sum ?_ _ (List.mem_map_of_mem hq)⟩
      intro y hy
      obtain ⟨q, hq, rfl⟩ := List.mem_map.1 hy
      exact hp q hq
    have := (interp_bounds 0 w 0 M _ e' (fun q hq => ⟨hp q hq, hM q hq⟩)).1
    nlinarith
  · have := star l a f h1 h2 ha.ge hp (x / s) x w v (by rw [ha]; positivity) hle e' e
    rw [← mul_div_assoc, div_le_iff₀ hs0] at this
    have : v * x ≤ (w * s) * x := by linarith
    exact le_of_mul_le_mul_right this h0

/-! ### sand -/

theorem kPhi_of {sig X phi D : ℝ} {kind : Loading} {w : Bool} {k ymax : ℝ} {len : ℕ} {l : List (ℝ × ℝ)} (h0 : 0 ≤ phi)
    (h1 : phi < 90) (hD : 0 < D) (h : apiSand sig X phi D kind w k ymax len = some l) :
    ∃ kphi, kPhi phi k w = some kphi ∧ 0 < kphi ∧
      l = (Conic.linspace 0 (ymaxSand sig X phi D (factor kind X D) kphi ymax) (max 8 len)).map
        (fun y => (y, apiSandP (factor kind X D) (sandUltimate sig X phi D) kphi X y)) := by
  cases hk : kPhi phi k w with
  | none =>
    unfold apiSand at h
    rw [if_neg (by rintro (⟨h, _⟩ | h | h) <;> linarith), hk] at h
    exact absurd h (by simp)
  | some m =>
    rw [apiSand_eq h0 h1 hD hk, Option.some.injEq] at h
    exact ⟨m, rfl, kPhi_pos hk, h.symm⟩

theorem cyclic_factor (X D : ℝ) : factor .cyclic X D = 9 / 10 := by simp [factor]

theorem sandP_mono {A A' P k X y y' : ℝ} (hA : 0 < A) (hAA : A ≤ A') (hP : 0 ≤ P) (hk : 0 < k) (hX : 0 ≤ X) (hy : 0 ≤ y)
    (hyy : y ≤ y') : apiSandP A P k X y ≤ apiSandP A' P k X y' := by
  unfold apiSandP
  rcases hP.eq_or_lt with h | h
  · simp [← h]
  · simp only [h.ne', ↓reduceIte]
    have hA' : 0 < A' := hA.trans_le hAA
    have h1 := Tanh.scaled_mono (mul_pos hA h) (mul_le_mul_of_nonneg_right hAA h.le) (c := k * X * y) (by positivity)
    refine h1.trans (mul_le_mul_of_nonneg_left ?_ (by positivity))
    apply Tanh.strictMono_tanh.monotone
    gcongr

/-- `api_sand`: the cyclic resistance at a displacement is at most the static one at a displacement at least as large. Lengths and
ranges of the two tables may differ. -/
theorem C103_api_sand {sig X phi D : ℝ} {w : Bool} {k ymax ymax' : ℝ} {len len' : ℕ} {l l' : List (ℝ × ℝ)}
    (h0 : 0 ≤ phi) (h1 : phi < 90) (hs : 0 ≤ sig) (hX : 0 ≤ X) (hD : 0 < D) (hy : 0 ≤ ymax)
    (h : apiSand sig X phi D .cyclic w k ymax len = some l) (h' : apiSand sig X phi D .static w k ymax' len' = some l') :
    Outresists l l' := by
  obtain ⟨kp, e, hk, rfl⟩ := kPhi_of h0 h1 hD h
  obtain ⟨kp', e', _, rfl⟩ := kPhi_of h0 h1 hD h'
  rw [e, Option.some.injEq] at e'
  subst e'
  have hP : 0 ≤ sandUltimate sig X phi D := by
    rw [← pmaxSand_eq h0 h1]; exact pmaxSand_nonneg h0 h1 hs hX hD.le
  intro q hq q' hq' hle
  obtain ⟨y, m, rfl⟩ := List.mem_map.1 hq
  obtain ⟨y', m', rfl⟩ := List.mem_map.1 hq'
  refine sandP_mono ?_ ?_ hP hk hX ?_ hle
  · rw [cyclic_factor]; norm_num
  · rw [cyclic_factor]; exact factor_pos _ _ _
  · refine (linspace_mem_le (ymaxSand_nonneg h0 h1 hs hX hD ?_ hk hy) m).1
    rw [cyclic_factor]; norm_num

theorem linspace_mul (b r : ℝ) (n : ℕ) : Conic.linspace 0 (b * r) n = (Conic.linspace 0 b n).map (· * r) := by
  unfold Conic.linspace
  split_ifs
  · simp
  · rw [List.map_map]
    apply List.map_congr_left
    intro i _
    simp only [Function.comp]
    ring

theorem sandP_scaled {P k X y r : ℝ} (hr : 1 ≤ r) : apiSandP (9 / 10 * r) P k X (y * r) = apiSandP (9 / 10) P k X y * r := by
  unfold apiSandP
  split_ifs with h
  · ring
  · have : k * X * (y * r) / (9 / 10 * r * P) = k * X * y / (9 / 10 * P) := by
      have : r ≠ 0 := by linarith
      field_simp
    rw [this]
    ring

theorem ymaxSand_scaled (sig X phi D kphi r : ℝ) :
    ymaxSand sig X phi D (9 / 10 * r) kphi 0 = ymaxSand sig X phi D (9 / 10) kphi 0 * r := by
  unfold ymaxSand
  simp only [↓reduceIte]
  ring

/-- `api_sand` with a common range (given or default): the cyclic table is nowhere above the static one, also between the points. -/
theorem C103_api_sand_between {sig X phi D : ℝ} {w : Bool} {k ymax : ℝ} {len : ℕ} {l l' : List (ℝ × ℝ)}
    (h0 : 0 ≤ phi) (h1 : phi < 90) (hs : 0 ≤ sig) (hX : 0 ≤ X) (hD : 0 < D) (hy : 0 ≤ ymax)
    (h : apiSand sig X phi D .cyclic w k ymax len = some l) (h' : apiSand sig X phi D .static w k ymax len = some l') :
    Weaker l l' := by
  rcases hy.eq_or_lt with rfl | hy
  swap
  · apply weaker_of_below
    have := C30_static_ge_cyclic h0 h1 hs hX hD hy h' h
    exact (List.Forall₂.flip this).imp fun a b hab => ⟨hab.1.symm, hab.2⟩
  obtain ⟨kp, e, hk, rfl⟩ := kPhi_of h0 h1 hD h
  obtain ⟨kp', e', _, rfl⟩ := kPhi_of h0 h1 hD h'
  rw [e, Option.some.injEq] at e'
  subst e'
  have hP : 0 ≤ sandUltimate sig X phi D := by
    rw [← pmaxSand_eq h0 h1]; exact pmaxSand_nonneg h0 h1 hs hX hD.le
  rcases hP.eq_or_lt with hP0 | hP0
  · intro x v v' _ e e'
    have z : ∀ (A : ℝ) (ys : List ℝ) (u : ℝ), interp x (ys.map fun y => (y, apiSandP A (sandUltimate sig X phi D) kp X y)) = some u →
        u = 0 := by
      intro A ys u hu
      have := interp_bounds x u 0 0 _ hu (by
        intro q hq
        obtain ⟨y, _, rfl⟩ := List.mem_map.1 hq
        simp [apiSandP, ← hP0])
      exact le_antisymm this.2 this.1
    rw [z _ _ _ e, z _ _ _ e']
  obtain ⟨r, hr, hA⟩ : ∃ r, 1 ≤ r ∧ factor .static X D = 9 / 10 * r := by
    refine ⟨factor .static X D / (9 / 10), ?_, by ring⟩
    rw [le_div_iff₀ (by norm_num)]
    linarith [factor_pos .static X D]
  rw [hA, cyclic_factor, ymaxSand_scaled, linspace_mul, List.map_map]
  have hb : 0 < ymaxSand sig X phi D (9 / 10) kp 0 := by
    have hp := pmaxSand_eq (sig := sig) (X := X) (D := D) h0 h1
    unfold ymaxSand
    simp only [↓reduceIte, hp, hP0.ne']
    have : 0 < max X (1 / 10 : ℝ) := lt_of_lt_of_le (by norm_num) (le_max_right _ _)
    positivity
  have e2 : ((fun y => (y, apiSandP (9 / 10 * r) (sandUltimate sig X phi D) kp X y)) ∘ fun y : ℝ => y * r)
      = fun y => (y * r, apiSandP (9 / 10) (sandUltimate sig X phi D) kp X y * r) := by
    funext y
    simp only [Function.comp, sandP_scaled hr]
  rw [e2]
  have e3 : (Conic.linspace 0 (ymaxSand sig X phi D (9 / 10) kp 0) (max 8 len)).map
        (fun y => (y * r, apiSandP (9 / 10) (sandUltimate sig X phi D) kp X y * r))
      = Axial.scaled r r ((Conic.linspace 0 (ymaxSand sig X phi D (9 / 10) kp 0) (max 8 len)).map
        (fun y => (y, apiSandP (9 / 10) (sandUltimate sig X phi D) kp X y))) := by
    unfold Axial.scaled
    rw [List.map_map]
    rfl
  rw [e3]
  have hhead := linspace_head 0 (ymaxSand sig X phi D (9 / 10) kp 0) (n := max 8 len) (by omega)
  have hsort := Conic.linspace_pairwise hb (max 8 len)
  have hmem : ∀ y ∈ Conic.linspace 0 (ymaxSand sig X phi D (9 / 10) kp 0) (max 8 len), 0 ≤ y :=
    fun y hy => (Conic.linspace_mem hb hy).1
  generalize Conic.linspace 0 (ymaxSand sig X phi D (9 / 10) kp 0) (max 8 len) = ys at *
  cases ys with
  | nil => simp at hhead
  | cons y ys =>
    simp only [List.head?_cons, Option.some.injEq] at hhead
    rw [List.map_cons]
    refine weaker_stretched hr ?_ ?_ hhead ?_
    · rw [← List.map_cons (f := fun y => (y, apiSandP (9 / 10) (sandUltimate sig X phi D) kp X y)), List.pairwise_map]
      exact hsort
    · rw [← List.map_cons (f := fun y => (y, apiSandP (9 / 10) (sandUltimate sig X phi D) kp X y)), List.pairwise_map]
      refine hsort.imp_of_mem fun {a b} ha hb' hab => ?_
      have ha0 := hmem a ha
      have hb0 := hmem b hb'
      simp only [apiSandP, hP0.ne', ↓reduceIte]
      rcases ha0.eq_or_lt with h | h
      · rw [← h]
        have : 0 ≤ Real.tanh (kp * X * 0 / (9 / 10 * sandUltimate sig X phi D)) := by simp
        simp
      · have hb1 : 0 < b := h.trans hab
        have := Tanh.scaled_mono (a := 1 / b) (a' := 1 / a) (c := kp * X / (9 / 10 * sandUltimate sig X phi D)) (by positivity)
          (one_div_le_one_div_of_le h hab.le) (by positivity)
        have r1 : kp * X / (9 / 10 * sandUltimate sig X phi D) / (1 / b) = kp * X * b / (9 / 10 * sandUltimate sig X phi D) := by
          field_simp
        have r2 : kp * X / (9 / 10 * sandUltimate sig X phi D) / (1 / a) = kp * X * a / (9 / 10 * sandUltimate sig X phi D) := by
          field_simp
        rw [r1, r2, one_div_mul_eq_div, one_div_mul_eq_div, div_le_div_iff₀ hb1 h] at this
        have := mul_le_mul_of_nonneg_left this (mul_nonneg (by norm_num : (0 : ℝ) ≤ 9 / 10) hP0.le)
        linarith
    · rw [← List.map_cons (f := fun y => (y, apiSandP (9 / 10) (sandUltimate sig X phi D) kp X y))]
      intro q hq
      obtain ⟨z, hz, rfl⟩ := List.mem_map.1 hq
      have := sandP_mono (A := 9 / 10) (A' := 9 / 10) (by norm_num) le_rfl hP hk hX le_rfl (hmem z hz)
      refine le_trans ?_ this
      simp [apiSandP]

/-! ### clay between the points -/

theorem mem_yVector {nodes : List ℝ} {ym : ℝ} {n : ℕ} {add : ℝ → ℝ} {draws : List ℝ} {y : ℝ}
    (h : y ∈ yVector nodes ym n add draws) : y ∈ nodes ∨ ∃ r ∈ draws, y = add r := by
  unfold yVector at h
  rw [(Py.sortedBy_perm _ _).mem_iff, List.mem_append] at h
  rcases h with h | h
  · exact Or.inl (List.mem_of_mem_filter h)
  · obtain ⟨r, hr, rfl⟩ := List.mem_map.1 h
    exact Or.inr ⟨r, List.mem_of_mem_take hr, rfl⟩

/-- `api_clay` with the default range and the same random values: the cyclic table is nowhere above the static one, also between
the points. -/
theorem C103_api_clay_default {sig X Su eps D J : ℝ} {len : ℕ} {draws : List ℝ} {l l' : List (ℝ × ℝ)}
    (hc : ClayData sig X Su eps D J) (hd : Draws (max 8 len) draws) (h : apiClay sig X Su eps D J .cyclic 0 len draws = some l)
    (h' : apiClay sig X Su eps D J .static 0 len draws = some l') : Below l l' := by
  have hq := y50_pos hc
  refine below_of l l' ((apiClay_ys h).trans (apiClay_ys h').symm) fun q hq1 q' hq2 e => ?_
  refine (C103_api_clay_partial hc hd hd le_rfl le_rfl h h' q hq1 q' hq2 e.le).2 ?_
  have hm : q.1 ∈ l.map Prod.fst := List.mem_map_of_mem hq1
  rw [apiClay_ys h] at hm
  have e50 : y50 eps D = 5 / 2 * eps * D := rfl
  rw [← e50]
  have e16 : ymaxClay (y50 eps D) 0 = 16 * y50 eps D := by simp [ymaxClay]
  rw [e16] at hm
  rcases mem_yVector hm with hm | ⟨r, hr, hm⟩
  · simp only [List.mem_cons, List.not_mem_nil, or_false] at hm
    rcases hm with hm | hm | hm | hm | hm | hm | hm | hm <;> rw [hm]
    · left; linarith
    · left; linarith
    · left; linarith
    · left; linarith
    · left; linarith
    · right; linarith
    · right; linarith
    · right; linarith
  · right
    rw [hm]
    nlinarith [(hd.range r hr).1]

/-- `modified_Matlock` with the same range and random values. -/
theorem C103_modified_matlock_between {sig X Su eps D J ymax : ℝ} {len : ℕ} {draws : List ℝ} {l l' : List (ℝ × ℝ)}
    (hc : ClayData sig X Su eps D J) (hd : Draws (max 8 len) draws) (hy : 0 ≤ ymax)
    (h : modMatlock sig X Su eps D J .cyclic ymax len draws = some l)
    (h' : modMatlock sig X Su eps D J .static ymax len draws = some l') : Below l l' :=
  below_of l l' ((modMatlock_ys h).trans (modMatlock_ys h').symm) fun q hq q' hq' e =>
    C103_modified_matlock hc hd hd hy hy h h' q hq q' hq' e.le

/-- **C103 is violated by `api_clay` just beyond the peak.** Below the transition depth the cyclic plateau of 0.7185 times the
ultimate resistance lies above the static power law, which is not rounded; a table that ends at 3.0001 times `y50` shows it. -/
theorem C103_violated_peak {sig X Su eps D J : ℝ} {len : ℕ} {draws : List ℝ} (hc : ClayData sig X Su eps D J)
    (hd : Draws (max 8 len) draws) (hS : 0 < Su) (hX : 5 / 2 * D < X) (hw : clayDeep Su D < clayWedge sig X Su D J) :
    ∃ l l', apiClay sig X Su eps D J .cyclic (30001 / 10000 * (5 / 2 * eps * D)) len draws = some l ∧
      apiClay sig X Su eps D J .static (30001 / 10000 * (5 / 2 * eps * D)) len draws = some l' ∧
      ∃ q ∈ l, ∃ q' ∈ l', q.1 = q'.1 ∧ q'.2 < q.2 := by
  have hD := hc.D
  have he := hc.eps
  have hq : 0 < 5 / 2 * eps * D := by positivity
  have hy : 0 < 30001 / 10000 * (5 / 2 * eps * D) := by positivity
  obtain ⟨l, e, k⟩ := C31_api_clay (kind := .cyclic) hc hd hy.le
  obtain ⟨l', e', k'⟩ := C31_api_clay (kind := .static) hc hd hy.le
  refine ⟨l, l', e, e', ?_⟩
  have hm : ∀ (kd : Loading) (t : List (ℝ × ℝ)), apiClay sig X Su eps D J kd (30001 / 10000 * (5 / 2 * eps * D)) len draws = some t →
      ∃ q ∈ t, q.1 = 30001 / 10000 * (5 / 2 * eps * D) := by
    intro kd t ht
    rw [← fst_mem_iff (apiClay_ys ht)]
    unfold yVector
    rw [(Py.sortedBy_perm _ _).mem_iff, List.mem_append]
    left
    have : ymaxClay (y50 eps D) (30001 / 10000 * (5 / 2 * eps * D)) = 30001 / 10000 * (5 / 2 * eps * D) := by
      unfold ymaxClay
      rw [if_neg hy.ne']
    rw [this]
    simp
  obtain ⟨q, hq1, hq2⟩ := hm _ l e
  obtain ⟨q', hq1', hq2'⟩ := hm _ l' e'
  refine ⟨q, hq1, q', hq1', hq2.trans hq2'.symm, ?_⟩
  obtain ⟨Xr, hT, H⟩ := k.law
  obtain ⟨_, _, H'⟩ := k'.law
  have hdeep : Xr < X := (hT.side hS).2 ⟨hX, hw⟩
  rw [((H q hq1).2 rfl).plateau hdeep (by rw [hq2]; linarith), ((H' q' hq1').1 rfl).rise (by rw [hq2']; linarith), hq2']
  have : 30001 / 10000 * (5 / 2 * eps * D) / (5 / 2 * eps * D) = 30001 / 10000 := by field_simp
  rw [this]
  have hPu : 0 < clayUltimate sig X Su D J := by
    unfold clayUltimate
    have : 0 < clayDeep Su D := by unfold clayDeep; positivity
    exact lt_min this (this.trans hw)
  nlinarith [peak_lt]

example : ClayData 200 20 50 (1 / 100) 2 (1 / 2) ∧ (0 : ℝ) < 50 ∧ (5 / 2 * 2 : ℝ) < 20 ∧ clayDeep 50 2 < clayWedge 200 20 50 2 (1 / 2) := by
  refine ⟨⟨?_, ?_, ?_, ?_, ?_, ?_⟩, ?_, ?_, ?_⟩ <;> norm_num [clayDeep, clayWedge]

/-! ### the springs of a Model -/

open OpenPile.SoilModel OpenPile.Params

theorem multiply_weaker {y p : Mult} {X ym pm : ℝ} {l l' t t' : List (ℝ × ℝ)} (hy : y.val X = some ym) (hp : p.val X = some pm)
    (h0 : 0 < ym) (h1 : 0 ≤ pm) (h : multiply y p X l = some t) (h' : multiply y p X l' = some t') (hw : Weaker l l') :
    Weaker t t' := by
  unfold multiply at h h'
  rw [hy, hp] at h h'
  simp only [Option.bind_eq_bind, Option.bind_some, Option.pure_def, Option.some.injEq] at h h'
  subst h h'
  exact weaker_scaled h0 h1 hw

/-- `py_spring_fct` of `API_clay` and `Modified_Matlock_clay` in a Model, which leaves the range to its default: the curve for cyclic
loading is nowhere above the curve for static loading. -/
theorem C103_model_clay {s : MatlockClay} {a : Args} {e : Env} {l l' : List (ℝ × ℝ)} {ym pm : ℝ}
    (hc : ∀ Su eps, layered s.Su a.depth a.height = some Su → layered s.eps50 a.depth a.height = some eps →
      ClayData a.sig a.X Su eps a.D s.J)
    (hd : Draws (max 8 a.len) e.draws) (hy : a.ymax = 0) (hym : s.y.val a.X = some ym) (hpm : s.p.val a.X = some pm) (h0 : 0 < ym)
    (h1 : 0 ≤ pm) (h : MatlockClay.py { s with kind := .cyclic } a e = some l)
    (h' : MatlockClay.py { s with kind := .static } a e = some l') : Weaker l l' := by
  unfold MatlockClay.py SoilModel.guard at h h'
  by_cases hg : a.depth > a.height
  · rw [if_pos hg] at h
    cases h
  rw [if_neg hg] at h h'
  simp only [Option.bind_eq_bind] at h h'
  obtain ⟨Su, eS, h⟩ := Option.bind_eq_some_iff.1 h
  obtain ⟨eps, ee, h⟩ := Option.bind_eq_some_iff.1 h
  rw [eS, Option.bind_some, ee, Option.bind_some] at h'
  have hcd := hc Su eps eS ee
  rw [hy] at h h'
  cases hk : s.curve with
  | api =>
    simp only [hk] at h h'
    obtain ⟨t, et, h⟩ := Option.bind_eq_some_iff.1 h
    obtain ⟨t', et', h'⟩ := Option.bind_eq_some_iff.1 h'
    exact multiply_weaker hym hpm h0 h1 h h' (weaker_of_below (C103_api_clay_default hcd hd et et'))
  | modified =>
    simp only [hk] at h h'
    obtain ⟨t, et, h⟩ := Option.bind_eq_some_iff.1 h
    obtain ⟨t', et', h'⟩ := Option.bind_eq_some_iff.1 h'
    exact multiply_weaker hym hpm h0 h1 h h' (weaker_of_below (C103_modified_matlock_between hcd hd le_rfl et et'))

/-- The same for `API_sand`. -/
theorem C103_model_sand {s : ApiSand} {a : Args} {l l' : List (ℝ × ℝ)} {ym pm : ℝ}
    (hphi : ∀ phi, layered s.phi a.depth a.height = some phi → 0 ≤ phi ∧ phi < 90) (hs : 0 ≤ a.sig) (hX : 0 ≤ a.X) (hD : 0 < a.D)
    (hy : 0 ≤ a.ymax) (hym : s.y.val a.X = some ym) (hpm : s.p.val a.X = some pm) (h0 : 0 < ym) (h1 : 0 ≤ pm)
    (h : ApiSand.py { s with kind := .cyclic } a = some l) (h' : ApiSand.py { s with kind := .static } a = some l') :
    Weaker l l' := by
  unfold ApiSand.py SoilModel.guard at h h'
  by_cases hg : a.depth > a.height
  · rw [if_pos hg] at h
    cases h
  rw [if_neg hg] at h h'
  simp only [Option.bind_eq_bind] at h h'
  obtain ⟨phi, ep, h⟩ := Option.bind_eq_some_iff.1 h
  obtain ⟨k, ek, h⟩ := Option.bind_eq_some_iff.1 h
  obtain ⟨t, et, h⟩ := Option.bind_eq_some_iff.1 h
  have ek' : ApiSand.subgrade { s with kind := .static } a phi = some k := ek
  rw [ep, Option.bind_some, ek', Option.bind_some] at h'
  obtain ⟨t', et', h'⟩ := Option.bind_eq_some_iff.1 h'
  exact multiply_weaker hym hpm h0 h1 h h' (C103_api_sand_between (hphi phi ep).1 (hphi phi ep).2 hs hX hD hy et et')

/-- A sand at 3 m depth for which both curves exist. -/
example : ∃ l l', ApiSand.py ⟨.scalar 30, .cyclic, none, none, .num 1, .num 1, false⟩ ⟨20, 3, 10, 3, 2, 20, true, 0, 15⟩ = some l ∧
    ApiSand.py ⟨.scalar 30, .static, none, none, .num 1, .num 1, false⟩ ⟨20, 3, 10, 3, 2, 20, true, 0, 15⟩ = some l' := by
  have hk : ∃ m, kPhi 30 0 true = some m := ⟨_, by simp only [kPhi]; simp; rfl⟩
  obtain ⟨m, hm⟩ := hk
  have hl : layered (.scalar 30) (3 : ℝ) 10 = some 30 := by
    unfold layered
    simp [topBottom]
  unfold ApiSand.py SoilModel.guard ApiSand.subgrade
  rw [if_neg (by norm_num), if_neg (by norm_num)]
  simp only [hl, Option.bind_eq_bind, Option.bind_some]
  rw [apiSand_eq (by norm_num) (by norm_num) (by norm_num) hm,
    apiSand_eq (by norm_num) (by norm_num) (by norm_num) hm]
  exact ⟨_, _, rfl, rfl⟩

end OpenPile.Props.Cyclic

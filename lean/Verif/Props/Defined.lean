/-
C64: the lateral springs of sound soil models exist.
-/
import Verif.Spec.Sound
import Verif.Props.Rotational
import Verif.Props.Clay
import Verif.Props.Rock
import Verif.Props.Hooks

namespace OpenPile.Props.Defined
open OpenPile OpenPile.SoilModel OpenPile.Params OpenPile.Spec.Sound OpenPile.Axial

/-! ### parameters -/

theorem ends_layered {p : Param ℝ} {t b d h : ℝ} (he : Ends p t b) (hh : 0 < h) :
    layered p d h = some (t + (b - t) * (d / h)) := by
  cases he <;> simp [layered, topBottom, hh.ne', mul_div_assoc]

theorem between_value {p : Param ℝ} {lo hi d h : ℝ} (hp : Between p lo hi) (hh : 0 < h) (h0 : 0 ≤ d) (h1 : d ≤ h) :
    ∃ v, layered p d h = some v ∧ lo ≤ v ∧ v ≤ hi := by
  obtain ⟨t, b, he, a1, a2, a3, a4⟩ := hp
  have w0 : 0 ≤ d / h := div_nonneg h0 hh.le
  have w1 : d / h ≤ 1 := (div_le_one hh).2 h1
  refine ⟨_, ends_layered he hh, ?_, ?_⟩ <;> nlinarith

theorem positive_value {p : Param ℝ} {d h : ℝ} (hp : Positive p) (hh : 0 < h) (h0 : 0 ≤ d) (h1 : d ≤ h) :
    ∃ v, layered p d h = some v ∧ 0 < v := by
  obtain ⟨t, b, he, a1, a2⟩ := hp
  have w0 : 0 ≤ d / h := div_nonneg h0 hh.le
  have w1 : d / h ≤ 1 := (div_le_one hh).2 h1
  refine ⟨_, ends_layered he hh, ?_⟩
  rcases w0.eq_or_lt with h | h
  · rw [← h]; linarith
  · nlinarith [mul_pos a2 h, mul_nonneg a1.le (sub_nonneg.2 w1)]

theorem nonneg_value {p : Param ℝ} {d h : ℝ} (hp : Nonneg p) (hh : 0 < h) (h0 : 0 ≤ d) (h1 : d ≤ h) :
    ∃ v, layered p d h = some v ∧ 0 ≤ v := by
  obtain ⟨t, b, he, a1, a2⟩ := hp
  have w0 : 0 ≤ d / h := div_nonneg h0 hh.le
  have w1 : d / h ≤ 1 := (div_le_one hh).2 h1
  refine ⟨_, ends_layered he hh, ?_⟩
  nlinarith [mul_nonneg a2 w0, mul_nonneg a1 (sub_nonneg.2 w1)]

theorem custom_value {p : Param ℝ} {P : ℝ → Prop} {d h X : ℝ} (hp : Custom p P) (hh : 0 < h) (h0 : 0 ≤ d) (h1 : d ≤ h)
    (hX : 0 ≤ X) : ∃ v, valueAt p d h X = some v ∧ P v := by
  have w0 : 0 ≤ d / h := div_nonneg h0 hh.le
  have w1 : d / h ≤ 1 := (div_le_one hh).2 h1
  cases p with
  | func f => exact hp X hX
  | scalar x =>
    obtain ⟨t, b, he, hw⟩ := hp
    exact ⟨_, ends_layered he hh, hw _ w0 w1⟩
  | list l =>
    obtain ⟨t, b, he, hw⟩ := hp
    exact ⟨_, ends_layered he hh, hw _ w0 w1⟩
  | object f =>
    obtain ⟨t, b, he, hw⟩ := hp
    cases he

theorem mult_value {m : Mult} {X : ℝ} (hm : Everywhere m) (hX : 0 ≤ X) : ∃ v, m.val X = some v := by
  cases m with
  | num x => exact ⟨x, rfl⟩
  | func f => exact hm X hX

/-! ### storing -/

/-- Arguments of a spring inside a layer. -/
structure Inside (a : Args) : Prop where
  sig : 0 ≤ a.sig
  X : 0 ≤ a.X
  height : 0 < a.height
  depth : 0 ≤ a.depth
  bound : a.depth ≤ a.height
  D : 0 < a.D
  ymax : a.ymax = 0
  len : a.len = 15

theorem multiply_some {y p : Mult} {X : ℝ} (hy : Everywhere y) (hp : Everywhere p) (hX : 0 ≤ X) {l : List (ℝ × ℝ)}
    {n : ℕ} (hl : l.length = n) : ∃ l', multiply y p X l = some l' ∧ l'.length = n := by
  obtain ⟨v, e1⟩ := mult_value hy hX
  obtain ⟨w, e2⟩ := mult_value hp hX
  refine ⟨_, by unfold multiply; rw [e1, e2]; rfl, ?_⟩
  simp [Conic.scale, hl]

theorem multiplyRows_some {t m : Mult} {X : ℝ} (ht : Everywhere t) (hm : Everywhere m) (hX : 0 ≤ X) {T : Table} {n k : ℕ}
    (hl : T.length = n) (hr : ∀ r ∈ T, r.length = k) :
    ∃ T', multiplyRows t m X T = some T' ∧ T'.length = n ∧ ∀ r ∈ T', r.length = k := by
  obtain ⟨v, e1⟩ := mult_value ht hX
  obtain ⟨w, e2⟩ := mult_value hm hX
  refine ⟨_, by unfold multiplyRows; rw [e1, e2]; rfl, by simp [hl], ?_⟩
  intro r hr'
  obtain ⟨r', h', rfl⟩ := List.mem_map.1 hr'
  simp [Conic.scale, hr r' h']

theorem mapM_some {α β : Type} {f : α → Option β} {l : List α} (h : ∀ a ∈ l, ∃ b, f a = some b) :
    ∃ r, l.mapM f = some r := by
  induction l with
  | nil => exact ⟨[], rfl⟩
  | cons a l ih =>
    obtain ⟨b, hb⟩ := h a (by simp)
    obtain ⟨r, hr⟩ := ih fun x hx => h x (by simp [hx])
    exact ⟨b :: r, by rw [List.mapM_cons, hb, hr]; rfl⟩

/-- A table filled row by row: all rows exist and have the right length. -/
theorem table_some {p : List (ℝ × ℝ)} {g : ℝ × ℝ → Option (List (ℝ × ℝ))} {len : ℕ} (hp : p.length = len)
    (hg : ∀ q ∈ p, ∃ r, g q = some r ∧ r.length = len) :
    ∃ rows full, p.mapM g = some rows ∧ fill len rows = some full ∧ full.length = len ∧
      ∀ r ∈ full, r.length = len := by
  obtain ⟨rows, hr⟩ := mapM_some (f := g) (l := p) fun a ha => (hg a ha).imp fun _ h => h.1
  have hall := Rotational.mapM_forall₂ hr
  have hl := hall.length_eq
  refine ⟨rows, rows, hr, ?_, by omega, ?_⟩
  · unfold fill
    rw [if_neg (by omega)]
    have : len - rows.length = 0 := by omega
    rw [this]
    simp
  · intro r hr'
    obtain ⟨i, hi, rfl⟩ := List.getElem_of_mem hr'
    have := (List.forall₂_iff_get.1 hall).2 i (by omega) hi
    obtain ⟨r', h1, h2⟩ := hg _ (List.get_mem p ⟨i, by omega⟩)
    have e : rows[i] = r' := Option.some.inj (this.symm.trans h1)
    rw [e, h2]

/-- Rotational springs exist as soon as the t-z curve passes through the origin. -/
theorem rotational_some {c : List ℝ × List ℝ} {D : ℝ} {N len : ℕ} (norms : List ℝ) (h1 : c.1.length = N)
    (h2 : c.2.length = N) (hN : N ≤ len) (hD : D ≠ 0) (h0 : (0, 0) ∈ c.1.zip c.2) :
    ∃ T, rotational c D len norms = some T ∧ T.length = norms.length ∧ ∀ r ∈ T, r.length = len := by
  have key : ∀ (x : List ℝ) (next : ℝ → ℕ → ℝ), x.length = N → (0 : ℝ) ∈ x →
      ∃ y, positive x len next = some y ∧ y.length = len := by
    intro x next hx hm
    have hf : (0 : ℝ) ∈ x.filter (fun v => decide (0 ≤ v)) := List.mem_filter.2 ⟨hm, by simp⟩
    obtain ⟨last, hlast⟩ : ∃ last, (x.filter (fun v => decide (0 ≤ v))).getLast? = some last := by
      cases h : (x.filter (fun v => decide (0 ≤ v))).getLast? with
      | none => rw [List.getLast?_eq_none_iff.1 h] at hf; exact absurd hf (by simp)
      | some q => exact ⟨q, rfl⟩
    refine ⟨_, by unfold positive; simp only [hlast, Option.bind_eq_bind, Option.bind_some, Option.pure_def]; rfl, ?_⟩
    have := List.length_filter_le (fun v : ℝ => decide (0 ≤ v)) x
    simp only [List.length_append, List.length_map, List.length_range]
    omega
  have m1 : (0 : ℝ) ∈ c.1 := (List.of_mem_zip h0).1
  have m2 : (0 : ℝ) ∈ c.2 := (List.of_mem_zip h0).2
  obtain ⟨t, et, lt⟩ := key c.2 (fun x _ => x) h2 m2
  obtain ⟨z, ez, lz⟩ := key c.1 (fun x i => x + (i : ℝ) * (1 / 10)) h1 m1
  refine ⟨_, by unfold rotational; rw [et, ez]; simp only [Option.bind_eq_bind, Option.bind_some, if_neg hD, Option.pure_def]; rfl,
    by simp, ?_⟩
  intro r hr
  obtain ⟨w, -, rfl⟩ := List.mem_map.1 hr
  simp [lt, lz]

/-! ### API and Matlock clay -/

theorem matlock_py {s : MatlockClay} {a : Args} {e : Env} {D L : ℝ} (hs : Spec.Sound.Lateral D L (.matlock s))
    (ha : Inside a) (hd : Lateral.Draws 15 e.draws) : ∃ c, s.py a e = some c ∧ c.length = 15 := by
  obtain ⟨h1, h2, hJ, hp, hy⟩ := hs
  obtain ⟨Su, e1, hSu⟩ := nonneg_value h1 ha.height ha.depth ha.bound
  obtain ⟨eps, e2, heps⟩ := positive_value h2 ha.height ha.depth ha.bound
  have hc : Lateral.ClayData a.sig a.X Su eps a.D s.J := ⟨ha.sig, ha.X, hSu, heps, ha.D, hJ⟩
  have h8 : max 8 a.len = 15 := by rw [ha.len]; rfl
  unfold MatlockClay.py SoilModel.guard
  rw [if_neg (not_lt.2 ha.bound)]
  simp only [e1, e2, Option.bind_eq_bind, Option.bind_some]
  cases s.curve with
  | api =>
    obtain ⟨l, hl, hl'⟩ := Lateral.C31_api_clay (kind := s.kind) (len := a.len) hc (h8.symm ▸ hd) ha.ymax.ge
    simp only [hl, Option.bind_some]
    exact multiply_some hy hp ha.X (by rw [hl'.table.length, h8])
  | modified =>
    obtain ⟨l, hl, hl'⟩ := Lateral.C31_modified_matlock (kind := s.kind) (len := a.len) hc (h8.symm ▸ hd) ha.ymax.ge
    simp only [hl, Option.bind_some]
    exact multiply_some hy hp ha.X (by rw [hl'.table.length, h8])

theorem matlock_mt {s : MatlockClay} {a : Args} {e : Env} {D L : ℝ} (hs : Spec.Sound.Lateral D L (.matlock s))
    (ha : Inside a) (hr : IsRandom e.tzDraws) (hsort : ∀ z, IsArgsort z (e.argsort z)) :
    ∃ T, s.mt a e = some T ∧ T.length = 15 ∧ ∀ r ∈ T, r.length = 15 := by
  obtain ⟨h1, -⟩ := hs
  obtain ⟨Su, e1, hSu⟩ := nonneg_value h1 ha.height ha.depth ha.bound
  obtain ⟨f, hf, -⟩ := Friction.C35_clay_bounds a.sig Su 1 ha.sig hSu zero_le_one
  obtain ⟨c, k1, k2, k3, -⟩ := Axial.C33_backbone_clay 1 1 (max 15 a.len) e.tzDraws e.argsort hr hsort
  have hN : max 15 (max 15 a.len) = 15 := by rw [ha.len]; rfl
  rw [hN] at k2
  unfold MatlockClay.mt SoilModel.guard
  rw [if_neg (not_lt.2 ha.bound)]
  simp only [e1, tzApiClay, hf, k1, Option.bind_eq_bind, Option.bind_some, Option.pure_def]
  have hz : ((0 : ℝ), (0 : ℝ)) ∈ (scaleCurve a.D f c).1.zip (scaleCurve a.D f c).2 := by
    rw [zip_scaleCurve]
    exact List.mem_map.2 ⟨(0, 0), k3 _ (by simp [clayNodes]), by simp⟩
  obtain ⟨T, hT, hl, hr'⟩ := rotational_some (len := a.len) (List.replicate a.len 1)
    (c := scaleCurve a.D f c) (N := 15) (by simp [scaleCurve, k2.disp])
    (by simp [scaleCurve, k2.force]) (by rw [ha.len])
    ha.D.ne' hz
  exact ⟨T, hT, by rw [hl, List.length_replicate, ha.len], fun r h => by rw [hr' r h, ha.len]⟩

/-! ### API sand -/

theorem power_some {b e : ℝ} (hb : 0 ≤ b) : ∃ v, Hooks.power b e = some v ∧ 0 ≤ v :=
  ⟨b ^ e, by rw [Hooks.power, if_neg hb.not_gt], Real.rpow_nonneg hb e⟩

theorem subgrade_some {s : ApiSand} {a : Args} {phi D L : ℝ} (hs : Spec.Sound.Lateral D L (.apiSand s)) (ha : Inside a)
    (hphi : 0 ≤ phi) : ∃ k, s.subgrade a phi = some k ∧ 0 ≤ k := by
  obtain ⟨-, hm, -⟩ := hs
  have hpi := Real.pi_pos
  have hD := ha.D
  have hX := ha.X
  have tail : ∀ k0 : ℝ, 0 ≤ k0 → ∃ k, (match s.modification with
      | none => some k0
      | some .kallehave => Hooks.subgradeKallehave phi a.belowWater a.X a.D
      | some .sorensen => Hooks.subgradeSorensen phi a.X a.D) = some k ∧ 0 ≤ k := by
    intro k0 hk
    cases s.modification with
    | none => exact ⟨k0, rfl, hk⟩
    | some m =>
      cases m with
      | kallehave =>
        obtain ⟨u, e1, hu⟩ := power_some (b := a.X / (5 / 2)) (e := 6 / 10) (by positivity)
        obtain ⟨v, e2, hv⟩ := power_some (b := a.D / (61 / 100)) (e := 5 / 10) (by positivity)
        have h5 : 0 ≤ Hooks.subgradeApi phi a.belowWater := le_trans (by norm_num) (Hooks.C48_api phi a.belowWater).1
        exact ⟨_, by simp only [Hooks.subgradeKallehave, e1, e2]; rfl, by positivity⟩
      | sorensen =>
        have hx : 0 < max a.X (1 / 100) := lt_of_lt_of_le (by norm_num) (le_max_right _ _)
        obtain ⟨u, e1, hu⟩ := power_some (b := max a.X (1 / 100) / 1) (e := 6 / 10) (by positivity)
        obtain ⟨v, e2, hv⟩ := power_some (b := a.D / 1) (e := 5 / 10) (by positivity)
        obtain ⟨w, e3, hw⟩ := power_some (b := phi * (Real.pi / 180)) (e := 36 / 10) (by positivity)
        exact ⟨_, by simp only [Hooks.subgradeSorensen, e1, e2, e3]; rfl, by positivity⟩
  unfold ApiSand.subgrade
  cases h : s.modulus with
  | none => exact tail 0 le_rfl
  | some m =>
    obtain ⟨k0, e0, hk0⟩ := nonneg_value (hm m h) ha.height ha.depth ha.bound
    simp only [e0, Option.bind_eq_bind, Option.bind_some]
    exact tail k0 hk0

theorem sand_py {s : ApiSand} {a : Args} {D L : ℝ} (hs : Spec.Sound.Lateral D L (.apiSand s)) (ha : Inside a) :
    ∃ c, s.py a = some c ∧ c.length = 15 := by
  have hs' := hs
  obtain ⟨⟨hi, h90, hphi⟩, -, hp, hy⟩ := hs
  obtain ⟨phi, e1, b1, b2⟩ := between_value hphi ha.height ha.depth ha.bound
  obtain ⟨k, e2, hk⟩ := subgrade_some hs' ha b1
  obtain ⟨l, kphi, hl, -, hlen, -⟩ := Lateral.C30_curve (sig := a.sig) (X := a.X) (phi := phi) (D := a.D)
    (kind := s.kind) (w := a.belowWater) (k := k) (ymax := a.ymax) (len := a.len) b1 (by linarith) ha.sig ha.X ha.D hk
    ha.ymax.ge
  unfold ApiSand.py SoilModel.guard
  rw [if_neg (not_lt.2 ha.bound)]
  simp only [e1, e2, hl, Option.bind_eq_bind, Option.bind_some]
  exact multiply_some hy hp ha.X (by rw [hlen, ha.len]; rfl)

theorem normalised_length (p : List ℝ) : (ApiSand.normalised p).length = p.length := by
  unfold ApiSand.normalised
  cases p.max? with
  | none => rfl
  | some m =>
    simp only
    split_ifs
    · simp
    · rfl

theorem sand_mt {s : ApiSand} {a : Args} {e : Env} {D L : ℝ} (hs : Spec.Sound.Lateral D L (.apiSand s))
    (ha : Inside a) (hr : IsRandom e.tzDraws) (hsort : ∀ z, IsArgsort z (e.argsort z)) :
    ∃ T, s.mt a e = some T ∧ T.length = 15 ∧ ∀ r ∈ T, r.length = 15 := by
  obtain ⟨l, e2, hl⟩ := sand_py hs ha
  obtain ⟨⟨hi, h90, hphi⟩, -⟩ := hs
  obtain ⟨phi, e1, b1, b2⟩ := between_value hphi ha.height ha.depth ha.bound
  obtain ⟨f, hf⟩ := Friction.C35_sand_total a.sig (phi - 5) (8 / 10)
  obtain ⟨c, k1, k2, k3, -⟩ := Axial.C33_backbone_sand 1 a.len e.tzDraws e.argsort hr hsort
  have hN : max 15 a.len = 15 := by rw [ha.len]; rfl
  rw [hN] at k2
  unfold ApiSand.mt SoilModel.guard
  rw [if_neg (not_lt.2 ha.bound)]
  simp only [e1, e2, tzApiSand, hf, k1, Option.bind_eq_bind, Option.bind_some, Option.pure_def]
  have hz : ((0 : ℝ), (0 : ℝ)) ∈ (scaleCurve 1 f c).1.zip (scaleCurve 1 f c).2 := by
    rw [zip_scaleCurve]
    exact List.mem_map.2 ⟨(0, 0), k3 _ (by simp [sandNodes]), by simp⟩
  obtain ⟨T, hT, hl', hr'⟩ := rotational_some (len := a.len) (ApiSand.normalised (l.map Prod.snd))
    (c := scaleCurve 1 f c) (N := 15) (by simp [scaleCurve, k2.disp])
    (by simp [scaleCurve, k2.force]) (by rw [ha.len])
    ha.D.ne' hz
  exact ⟨T, hT, by rw [hl', normalised_length, List.length_map, hl], fun r h => by rw [hr' r h, ha.len]⟩

/-! ### weak rock -/

theorem rock_py {s : WeakRock} {a : Args} {D L : ℝ} (hs : Spec.Sound.Lateral D L (.rock s)) (ha : Inside a) :
    ∃ c, s.py a = some c ∧ c.length = 15 := by
  obtain ⟨h1, h2, hk, hz, hp, hy⟩ := hs
  obtain ⟨Ei, e1, b1⟩ := positive_value h1 ha.height ha.depth ha.bound
  obtain ⟨qu, e2, b2⟩ := nonneg_value h2 ha.height ha.depth ha.bound
  obtain ⟨l, hl, hl', -⟩ := Lateral.C32_curve (Ei := Ei) (qu := qu) (RQD := s.RQD) (xr := a.X + s.ztop) (D := a.D)
    (k := s.k) (len := a.len) ⟨b1, b2, add_nonneg ha.X hz, ha.D, hk⟩
  unfold WeakRock.py SoilModel.guard
  rw [if_neg (not_lt.2 ha.bound)]
  simp only [e1, e2, hl, Option.bind_eq_bind, Option.bind_some]
  exact multiply_some hy hp ha.X (by rw [hl'.length, ha.len]; rfl)

/-! ### reaction curves of the PISA models -/

theorem steep {xu n k yu : ℝ} (hx : 0 < xu) (hy : 0 < yu) (hn : 0 ≤ n) (hn1 : n < 1)
    (h : n * yu ≤ k * xu * (1 - n)) (sx sy : ℝ) {len : ℕ} (h5 : 5 ≤ len) :
    ∃ l, Conic.scaledConic xu n k yu sx sy len = some l ∧ l.length = len := by
  have h' : n / xu ≤ max (yu / xu) k / yu * (1 - n) := by
    have h1 : n / xu ≤ k / yu * (1 - n) := by
      rw [div_le_iff₀ hx, div_mul_eq_mul_div, div_mul_eq_mul_div, le_div_iff₀ hy]
      linarith
    refine h1.trans (mul_le_mul_of_nonneg_right ?_ (by linarith))
    exact div_le_div_of_nonneg_right (le_max_right _ _) hy.le
  obtain ⟨l, hl⟩ := Rotational.conic_some hx hy hn hn1 h5 h' sx sy
  exact ⟨l, hl, Rotational.scaledConic_length hl⟩

theorem moderate {xu n k yu : ℝ} (hx : 0 < xu) (hy : 0 < yu) (hn : 0 ≤ n) (hn1 : n ≤ 1 / 2) (sx sy : ℝ) {len : ℕ}
    (h5 : 5 ≤ len) : ∃ l, Conic.scaledConic xu n k yu sx sy len = some l ∧ l.length = len := by
  obtain ⟨l, hl⟩ := Conic.C28_defined_moderate (k := k) hx hy hn hn1 h5
  have : Conic.scaledConic xu n k yu sx sy len = some (Conic.scale sx sy l) := by
    unfold Conic.scaledConic
    rw [hl]
    rfl
  exact ⟨_, this, Rotational.scaledConic_length this⟩

section curves

variable {X D L Su G0 sig Dr p : ℝ} {len : ℕ}

theorem ratio {x D : ℝ} (hD : 0 < D) (h0 : 0 ≤ x) (h6 : x ≤ 6 * D) : 0 ≤ x / D ∧ x / D ≤ 6 :=
  ⟨div_nonneg h0 hD.le, (div_le_iff₀ hD).2 h6⟩

theorem pyCowden_some (hD : 0 < D) (hG : 0 < G0) (hX : 0 ≤ X) (h6 : X ≤ 6 * D) (h5 : 5 ≤ len) :
    ∃ l, Conic.pyCowden X Su G0 D len = some l ∧ l.length = len := by
  unfold Conic.pyCowden
  rw [if_neg (by push Not; exact ⟨hD.ne', hG.ne'⟩)]
  obtain ⟨r0, r6⟩ := ratio hD hX h6
  simp only [mul_div_assoc]
  have he : Real.exp (-3085 / 10000 * (X / D)) ≤ 1 := Real.exp_le_one_iff.2 (by nlinarith)
  have he0 := Real.exp_pos (-3085 / 10000 * (X / D))
  refine steep (by norm_num) (by linarith) (by linarith) (by linarith) ?_ _ _ h5
  have : (9390 / 10000 + -3345 / 100000 * (X / D)) * (107 / 10 + -7101 / 1000 * Real.exp (-3085 / 10000 * (X / D))) ≤
      (9390 / 10000 + -3345 / 100000 * (X / D)) * (107 / 10) := mul_le_mul_of_nonneg_left (by linarith) (by linarith)
  refine this.trans ?_
  nlinarith [mul_nonneg r0 (sub_nonneg.2 r6)]

theorem pyBothkennar_some (hD : 0 < D) (hG : 0 < G0) (hX : 0 ≤ X) (h6 : X ≤ 6 * D) (h5 : 5 ≤ len) :
    ∃ l, Conic.pyBothkennar X Su G0 D len = some l ∧ l.length = len := by
  unfold Conic.pyBothkennar
  rw [if_neg (by push Not; exact ⟨hD.ne', hG.ne'⟩)]
  obtain ⟨r0, r6⟩ := ratio hD hX h6
  simp only [mul_div_assoc]
  have he : Real.exp (-8456 / 10000 * (X / D)) ≤ 1 := Real.exp_le_one_iff.2 (by nlinarith)
  have he0 := Real.exp_pos (-8456 / 10000 * (X / D))
  refine steep (by norm_num) (by linarith) (by linarith) (by linarith) ?_ _ _ h5
  have : (7204 / 10000 + -2679 / 1000000 * (X / D)) * (7743 / 1000 + -3945 / 1000 * Real.exp (-8456 / 10000 * (X / D))) ≤
      (7204 / 10000 + -2679 / 1000000 * (X / D)) * (7743 / 1000) := mul_le_mul_of_nonneg_left (by linarith) (by linarith)
  refine this.trans ?_
  nlinarith [mul_nonneg r0 (sub_nonneg.2 r6)]

theorem mtCowden_some (hD : 0 < D) (hG : 0 < G0) (hX : 0 ≤ X) (h6 : X ≤ 6 * D) (h5 : 5 ≤ len) :
    ∃ l, Conic.mtCowden X Su G0 D len = some l ∧ l.length = len := by
  unfold Conic.mtCowden
  rw [if_neg (by push Not; exact ⟨hD.ne', hG.ne'⟩)]
  obtain ⟨r0, r6⟩ := ratio hD hX h6
  simp only [mul_div_assoc]
  rw [if_neg (by linarith)]
  refine moderate (div_pos (by linarith) (by linarith)) (by linarith) (by simp) (by norm_num) _ _ h5

theorem mtBothkennar_some (hD : 0 < D) (hG : 0 < G0) (hX : 0 ≤ X) (h6 : X ≤ 6 * D) (h5 : 5 ≤ len) :
    ∃ l, Conic.mtBothkennar X Su G0 D len = some l ∧ l.length = len := by
  unfold Conic.mtBothkennar
  rw [if_neg (by push Not; exact ⟨hD.ne', hG.ne'⟩)]
  obtain ⟨r0, r6⟩ := ratio hD hX h6
  simp only [mul_div_assoc]
  rw [if_neg (by linarith)]
  refine moderate (div_pos (by linarith) (by linarith)) (by linarith) (by simp) (by norm_num) _ _ h5

theorem slender_ratio (hD : 0 < D) (h : Slender D L) : 1 ≤ L / D ∧ L / D ≤ 6 :=
  ⟨(le_div_iff₀ hD).2 (by linarith [h.1]), (div_le_iff₀ hD).2 h.2⟩

theorem hbCowden_some (hD : 0 < D) (hG : 0 < G0) (hL : Slender D L) (h5 : 5 ≤ len) :
    ∃ l, Conic.hbCowden Su G0 D L len = some l ∧ l.length = len := by
  unfold Conic.hbCowden
  rw [if_neg (by push Not; exact ⟨hD.ne', hG.ne'⟩)]
  obtain ⟨r1, r6⟩ := slender_ratio hD hL
  simp only [mul_div_assoc]
  refine steep (by linarith) (by linarith) (by linarith) (by linarith) ?_ _ _ h5
  nlinarith [mul_nonneg (sub_nonneg.2 r1) (sub_nonneg.2 r6)]

theorem hbBothkennar_some (hD : 0 < D) (hG : 0 < G0) (hL : Slender D L) (h5 : 5 ≤ len) :
    ∃ l, Conic.hbBothkennar Su G0 D L len = some l ∧ l.length = len := by
  unfold Conic.hbBothkennar
  rw [if_neg (by push Not; exact ⟨hD.ne', hG.ne'⟩)]
  obtain ⟨r1, r6⟩ := slender_ratio hD hL
  simp only [mul_div_assoc]
  refine steep (by linarith) (by linarith) (by linarith) (by linarith) ?_ _ _ h5
  nlinarith [mul_nonneg (sub_nonneg.2 r1) (sub_nonneg.2 r6)]

theorem mbCowden_some (hD : 0 < D) (hG : 0 < G0) (hL : Slender D L) (h5 : 5 ≤ len) :
    ∃ l, Conic.mbCowden Su G0 D L len = some l ∧ l.length = len := by
  unfold Conic.mbCowden
  rw [if_neg (by push Not; exact ⟨hD.ne', hG.ne'⟩)]
  obtain ⟨r1, r6⟩ := slender_ratio hD hL
  simp only [mul_div_assoc]
  refine steep (by norm_num) (by linarith) (by linarith) (by linarith) ?_ _ _ h5
  nlinarith [mul_nonneg (sub_nonneg.2 r1) (sub_nonneg.2 r6)]

theorem mbBothkennar_some (hD : 0 < D) (hG : 0 < G0) (hL : Slender D L) (h5 : 5 ≤ len) :
    ∃ l, Conic.mbBothkennar Su G0 D L len = some l ∧ l.length = len := by
  unfold Conic.mbBothkennar
  rw [if_neg (by push Not; exact ⟨hD.ne', hG.ne'⟩)]
  obtain ⟨r1, r6⟩ := slender_ratio hD hL
  simp only [mul_div_assoc]
  refine steep (by norm_num) (by linarith) (by linarith) (by linarith) ?_ _ _ h5
  nlinarith [mul_nonneg (sub_nonneg.2 r1) (sub_nonneg.2 r6)]

theorem pyDunkirk_some (hD : 0 < D) (hG : 0 < G0) (hX : 0 ≤ X) (hL : Slender D L) (hXL : X ≤ L) (d0 : 0 ≤ Dr)
    (d1 : Dr ≤ 50) (h15 : len = 15) : ∃ l, Conic.pyDunkirk sig X Dr G0 D L len = some l ∧ l.length = len := by
  have hL0 : 0 < L := lt_of_lt_of_le hD hL.1
  unfold Conic.pyDunkirk
  simp only
  rw [if_neg (by push Not; exact ⟨hD.ne', hL0.ne', hG.ne'⟩)]
  obtain ⟨r0, r6⟩ := ratio hD hX (hXL.trans hL.2)
  have s0 : 0 ≤ X / L := div_nonneg hX hL0.le
  have s1 : X / L ≤ 1 := (div_le_one hL0).2 hXL
  simp only [mul_div_assoc]
  have e0 : 0 ≤ Dr / 100 := by positivity
  have e1 : Dr / 100 ≤ 1 / 2 := by linarith
  have e8 : max 8 len = len := by rw [h15]; rfl
  rw [e8]
  generalize Dr / 100 = d at *
  generalize X / D = r at *
  generalize X / L = t at *
  have hyu : 0 < 3667 / 10000 + 2589 / 100 * d + (3375 / 10000 - 89 / 10 * d) * t := by
    nlinarith [mul_nonneg e0 s0, mul_nonneg e0 (sub_nonneg.2 s1)]
  have hyu' : 3667 / 10000 + 2589 / 100 * d + (3375 / 10000 - 89 / 10 * d) * t ≤ 8 / 10 + 2589 / 100 * d := by
    nlinarith [mul_nonneg e0 s0]
  refine steep (by linarith) hyu (by linarith) (by linarith) ?_ _ _ (by omega)
  refine (mul_le_mul_of_nonneg_left hyu' (by linarith)).trans ?_
  have hk : 8731 / 1000 - 6982 / 10000 * d - 9178 / 10000 * 6 ≤ 8731 / 1000 - 6982 / 10000 * d + -9178 / 10000 * r := by
    linarith
  have hpos : 0 ≤ (1461 / 10 - 9211 / 100 * d) * (1 - (917 / 1000 + 6193 / 100000 * d)) :=
    mul_nonneg (by linarith) (by linarith)
  have := mul_le_mul_of_nonneg_right hk hpos
  nlinarith [mul_nonneg e0 (sub_nonneg.2 e1), mul_nonneg (mul_nonneg e0 e0) (sub_nonneg.2 e1)]

theorem mtDunkirk_some (hD : 0 < D) (hG : 0 < G0) (hX : 0 ≤ X) (hL0 : 0 < L) (hXL : X ≤ L) (d0 : 0 ≤ Dr)
    (h5 : 5 ≤ len) : ∃ l, Conic.mtDunkirk sig X Dr G0 p D L len = some l ∧ l.length = len := by
  unfold Conic.mtDunkirk
  simp only
  rw [if_neg (by push Not; exact ⟨hD.ne', hL0.ne', hG.ne'⟩)]
  have s0 : 0 ≤ X / L := div_nonneg hX hL0.le
  have s1 : X / L ≤ 1 := (div_le_one hL0).2 hXL
  have e0 : 0 ≤ Dr / 100 := by positivity
  simp only [mul_div_assoc]
  have hy : 0 < 2605 / 10000 + (-1989 / 10000 + 2019 / 10000 * (Dr / 100)) * (X / L) := by
    nlinarith [mul_nonneg e0 s0]
  exact moderate (div_pos hy (by norm_num)) hy le_rfl (by norm_num) _ _ h5

theorem hbDunkirk_some (hD : 0 < D) (hG : 0 < G0) (hL : Slender D L) (d0 : 0 ≤ Dr) (d1 : Dr ≤ 50) (h5 : 5 ≤ len) :
    ∃ l, Conic.hbDunkirk sig Dr G0 D L len = some l ∧ l.length = len := by
  unfold Conic.hbDunkirk
  simp only
  rw [if_neg (by push Not; exact ⟨hD.ne', hG.ne'⟩)]
  obtain ⟨r1, r6⟩ := slender_ratio hD hL
  simp only [mul_div_assoc]
  have e0 : 0 ≤ Dr / 100 := by positivity
  have e1 : Dr / 100 ≤ 1 / 2 := by linarith
  generalize Dr / 100 = d at *
  generalize L / D = r at *
  have a1 := mul_nonneg e0 (sub_nonneg.2 r6)
  have a2 := mul_nonneg (sub_nonneg.2 e1) (sub_nonneg.2 r6)
  have a3 := mul_nonneg e0 (sub_nonneg.2 r1)
  have a4 := mul_nonneg (sub_nonneg.2 e1) (sub_nonneg.2 r1)
  exact moderate (by nlinarith) (by nlinarith) (by nlinarith) (by nlinarith) _ _ h5

theorem mbDunkirk_some (hD : 0 < D) (hG : 0 < G0) (hL : Slender D L) (d0 : 0 ≤ Dr) (d1 : Dr ≤ 50) (h5 : 5 ≤ len) :
    ∃ l, Conic.mbDunkirk sig Dr G0 D L len = some l ∧ l.length = len := by
  unfold Conic.mbDunkirk
  simp only
  rw [if_neg (by push Not; exact ⟨hD.ne', hG.ne'⟩)]
  obtain ⟨r1, r6⟩ := slender_ratio hD hL
  simp only [mul_div_assoc]
  have e0 : 0 ≤ Dr / 100 := by positivity
  have e1 : Dr / 100 ≤ 1 / 2 := by linarith
  generalize Dr / 100 = d at *
  generalize L / D = r at *
  have a1 := mul_nonneg e0 (sub_nonneg.2 r6)
  have a2 := mul_nonneg (sub_nonneg.2 e1) (sub_nonneg.2 r6)
  have a3 := mul_nonneg e0 (sub_nonneg.2 r1)
  have a4 := mul_nonneg (sub_nonneg.2 e1) (sub_nonneg.2 r1)
  have hy : 0 < 9981 / 100000 + 3710 / 10000 * d + (1998 / 100000 - 9041 / 100000 * d) * r := by nlinarith
  have hy1 : 9981 / 100000 + 3710 / 10000 * d + (1998 / 100000 - 9041 / 100000 * d) * r ≤ 1 := by nlinarith
  refine steep (by norm_num) hy (by linarith) (by linarith) ?_ _ _ h5
  nlinarith [mul_le_mul_of_nonneg_left hy1 (show 0 ≤ 3 / 10 + 4986 / 10000 * d by linarith)]

end curves

/-! ### PISA models -/

theorem pisa_curve {s : PisaClay} {a : Args} (ha : Inside a) (hL : Slender a.D a.L) (hXL : a.X ≤ a.L) {Su G0 : ℝ}
    (hG : 0 < G0) : ∃ c, s.pyCurve a Su G0 = some c ∧ c.length = 15 := by
  have h5 : 5 ≤ a.len := by rw [ha.len]; norm_num
  have h6 := hXL.trans hL.2
  rw [← ha.len]
  unfold PisaClay.pyCurve
  cases s.kind with
  | bothkennar => exact pyBothkennar_some ha.D hG ha.X h6 h5
  | cowden => exact pyCowden_some ha.D hG ha.X h6 h5

theorem pisa_py {s : PisaClay} {a : Args} (hs : Spec.Sound.Lateral a.D a.L (.pisaClay s)) (ha : Inside a)
    (hXL : a.X ≤ a.L) : ∃ c, s.py a = some c ∧ c.length = 15 := by
  obtain ⟨hL, h1, h2, hp, hy, -⟩ := hs
  obtain ⟨Su, e1, -⟩ := positive_value h1 ha.height ha.depth ha.bound
  obtain ⟨G0, e2, hG⟩ := positive_value h2 ha.height ha.depth ha.bound
  obtain ⟨c, e3, hc⟩ := pisa_curve (s := s) ha hL hXL (Su := Su) hG
  unfold PisaClay.py SoilModel.guard
  rw [if_neg (not_lt.2 ha.bound)]
  simp only [e1, e2, e3, Option.bind_eq_bind, Option.bind_some]
  exact multiply_some hy hp ha.X hc

theorem pisa_mt {s : PisaClay} {a : Args} (hs : Spec.Sound.Lateral a.D a.L (.pisaClay s)) (ha : Inside a)
    (hXL : a.X ≤ a.L) : ∃ T, s.mt a = some T ∧ T.length = 15 ∧ ∀ r ∈ T, r.length = 15 := by
  obtain ⟨hL, h1, h2, -, -, hm, ht⟩ := hs
  obtain ⟨Su, e1, -⟩ := positive_value h1 ha.height ha.depth ha.bound
  obtain ⟨G0, e2, hG⟩ := positive_value h2 ha.height ha.depth ha.bound
  obtain ⟨c, e3, hc⟩ := pisa_curve (s := s) ha hL hXL (Su := Su) hG
  have h5 : 5 ≤ a.len := by rw [ha.len]; norm_num
  have h6 := hXL.trans hL.2
  obtain ⟨rows, full, f1, f2, f3, f4⟩ := table_some (p := c) (len := a.len) (by rw [hc, ha.len])
    (g := fun _ : ℝ × ℝ => match s.kind with
      | .bothkennar => Conic.mtBothkennar a.X Su G0 a.D a.len
      | .cowden => Conic.mtCowden a.X Su G0 a.D a.len) (by
      intro q _
      cases s.kind with
      | bothkennar => exact mtBothkennar_some ha.D hG ha.X h6 h5
      | cowden => exact mtCowden_some ha.D hG ha.X h6 h5)
  unfold PisaClay.mt SoilModel.guard
  rw [if_neg (not_lt.2 ha.bound)]
  simp only [e1, e2, e3, Option.bind_eq_bind, Option.bind_some]
  obtain ⟨T, g1, g2, g3⟩ := multiplyRows_some ht hm ha.X f3 f4
  refine ⟨T, (congrArg (fun z => Option.bind z fun rows => (fill a.len rows).bind fun full =>
    multiplyRows s.t s.m a.X full) f1).trans ?_, by rw [g2, ha.len], fun r hr => by rw [g3 r hr, ha.len]⟩
  simp only [Option.bind_some, f2]
  exact g1

theorem pisa_hb {s : PisaClay} {a : Args} (hs : Spec.Sound.Lateral a.D a.L (.pisaClay s)) (ha : Inside a) :
    ∃ c, s.hb a = some c ∧ c.length = 15 := by
  obtain ⟨hL, h1, h2, -⟩ := hs
  obtain ⟨Su, e1, -⟩ := positive_value h1 ha.height ha.depth ha.bound
  obtain ⟨G0, e2, hG⟩ := positive_value h2 ha.height ha.depth ha.bound
  have h5 : 5 ≤ a.len := by rw [ha.len]; norm_num
  unfold PisaClay.hb SoilModel.guard
  rw [if_neg (not_lt.2 ha.bound), ← ha.len]
  simp only [e1, e2, Option.bind_eq_bind, Option.bind_some]
  cases s.kind with
  | bothkennar => exact hbBothkennar_some ha.D hG hL h5
  | cowden => exact hbCowden_some ha.D hG hL h5

theorem pisa_mb {s : PisaClay} {a : Args} (hs : Spec.Sound.Lateral a.D a.L (.pisaClay s)) (ha : Inside a) :
    ∃ c, s.mb a = some c ∧ c.length = 15 := by
  obtain ⟨hL, h1, h2, -⟩ := hs
  obtain ⟨Su, e1, -⟩ := positive_value h1 ha.height ha.depth ha.bound
  obtain ⟨G0, e2, hG⟩ := positive_value h2 ha.height ha.depth ha.bound
  have h5 : 5 ≤ a.len := by rw [ha.len]; norm_num
  unfold PisaClay.mb SoilModel.guard
  rw [if_neg (not_lt.2 ha.bound), ← ha.len]
  simp only [e1, e2, Option.bind_eq_bind, Option.bind_some]
  cases s.kind with
  | bothkennar => exact mbBothkennar_some ha.D hG hL h5
  | cowden => exact mbCowden_some ha.D hG hL h5

theorem dunkirk_py {s : Dunkirk} {a : Args} (hs : Spec.Sound.Lateral a.D a.L (.dunkirk s)) (ha : Inside a)
    (hXL : a.X ≤ a.L) : ∃ c, s.py a = some c ∧ c.length = 15 := by
  obtain ⟨hL, h1, h2, hp, hy, -⟩ := hs
  obtain ⟨Dr, e1, d0, d1⟩ := between_value h1 ha.height ha.depth ha.bound
  obtain ⟨G0, e2, hG⟩ := positive_value h2 ha.height ha.depth ha.bound
  obtain ⟨c, e3, hc⟩ := pyDunkirk_some (sig := a.sig) ha.D hG ha.X hL hXL d0 d1 ha.len
  unfold Dunkirk.py SoilModel.guard
  rw [if_neg (not_lt.2 ha.bound)]
  simp only [e1, e2, e3, Option.bind_eq_bind, Option.bind_some]
  exact multiply_some hy hp ha.X (hc.trans ha.len)

theorem dunkirk_mt {s : Dunkirk} {a : Args} (hs : Spec.Sound.Lateral a.D a.L (.dunkirk s)) (ha : Inside a)
    (hXL : a.X ≤ a.L) : ∃ T, s.mt a = some T ∧ T.length = 15 ∧ ∀ r ∈ T, r.length = 15 := by
  obtain ⟨hL, h1, h2, -, -, hm, ht⟩ := hs
  obtain ⟨Dr, e1, d0, d1⟩ := between_value h1 ha.height ha.depth ha.bound
  obtain ⟨G0, e2, hG⟩ := positive_value h2 ha.height ha.depth ha.bound
  obtain ⟨c, e3, hc⟩ := pyDunkirk_some (sig := a.sig) ha.D hG ha.X hL hXL d0 d1 ha.len
  have h5 : 5 ≤ a.len := by rw [ha.len]; norm_num
  obtain ⟨rows, full, f1, f2, f3, f4⟩ := table_some (p := c) (len := a.len) hc
    (g := fun q : ℝ × ℝ => Conic.mtDunkirk a.sig a.X Dr G0 q.2 a.D a.L a.len)
    (fun q _ => mtDunkirk_some ha.D hG ha.X (lt_of_lt_of_le ha.D hL.1) hXL d0 h5)
  unfold Dunkirk.mt SoilModel.guard
  rw [if_neg (not_lt.2 ha.bound)]
  simp only [e1, e2, e3, f1, f2, Option.bind_eq_bind, Option.bind_some]
  obtain ⟨T, g1, g2, g3⟩ := multiplyRows_some ht hm ha.X f3 f4
  exact ⟨T, g1, by rw [g2, ha.len], fun r hr => by rw [g3 r hr, ha.len]⟩

theorem dunkirk_hb {s : Dunkirk} {a : Args} (hs : Spec.Sound.Lateral a.D a.L (.dunkirk s)) (ha : Inside a) :
    ∃ c, s.hb a = some c ∧ c.length = 15 := by
  obtain ⟨hL, h1, h2, -⟩ := hs
  obtain ⟨Dr, e1, d0, d1⟩ := between_value h1 ha.height ha.depth ha.bound
  obtain ⟨G0, e2, hG⟩ := positive_value h2 ha.height ha.depth ha.bound
  unfold Dunkirk.hb SoilModel.guard
  rw [if_neg (not_lt.2 ha.bound), ← ha.len]
  simp only [e1, e2, Option.bind_eq_bind, Option.bind_some]
  exact hbDunkirk_some ha.D hG hL d0 d1 (by rw [ha.len]; norm_num)

theorem dunkirk_mb {s : Dunkirk} {a : Args} (hs : Spec.Sound.Lateral a.D a.L (.dunkirk s)) (ha : Inside a) :
    ∃ c, s.mb a = some c ∧ c.length = 15 := by
  obtain ⟨hL, h1, h2, -⟩ := hs
  obtain ⟨Dr, e1, d0, d1⟩ := between_value h1 ha.height ha.depth ha.bound
  obtain ⟨G0, e2, hG⟩ := positive_value h2 ha.height ha.depth ha.bound
  unfold Dunkirk.mb SoilModel.guard
  rw [if_neg (not_lt.2 ha.bound), ← ha.len]
  simp only [e1, e2, Option.bind_eq_bind, Option.bind_some]
  exact mbDunkirk_some ha.D hG hL d0 d1 (by rw [ha.len]; norm_num)

/-! ### custom models -/

theorem conics_at {c : Conics} {a : Args} (hc : Moderate c) (ha : Inside a) :
    ∃ xu n k yu, c.at a = some (xu, n, k, yu) ∧ 0 < xu ∧ 0 < yu ∧ 0 ≤ n ∧ n ≤ 1 / 2 := by
  obtain ⟨h1, h2, h3, h4⟩ := hc
  obtain ⟨xu, e1, b1⟩ := custom_value h1 ha.height ha.depth ha.bound ha.X
  obtain ⟨n, e2, b2, b3⟩ := custom_value h2 ha.height ha.depth ha.bound ha.X
  obtain ⟨k, e3, -⟩ := custom_value h3 ha.height ha.depth ha.bound ha.X
  obtain ⟨yu, e4, b4⟩ := custom_value h4 ha.height ha.depth ha.bound ha.X
  refine ⟨xu, n, k, yu, ?_, b1, b4, b2, b3⟩
  unfold Conics.at
  simp only [e1, e2, e3, e4, Option.bind_eq_bind, Option.bind_some, Option.pure_def]

theorem custom_curve {s : SoilModel.Custom} {a : Args} (hs : Spec.Sound.Lateral a.D a.L (.custom s)) (ha : Inside a) :
    ∃ c, s.pyCurve a = some c ∧ c.length = 15 := by
  obtain ⟨hSu, hG0, hpy, -⟩ := hs
  obtain ⟨xu, n, k, yu, e1, b1, b2, b3, b4⟩ := conics_at hpy ha
  obtain ⟨G0, e2, hG⟩ := custom_value hG0 ha.height ha.depth ha.bound ha.X
  have h5 : 5 ≤ a.len := by rw [ha.len]; norm_num
  unfold SoilModel.Custom.pyCurve
  rw [← ha.len]
  simp only [e1, e2, Option.bind_eq_bind, Option.bind_some]
  cases h : s.Su with
  | none =>
    simp only [Conic.pyCustomSand, if_neg hG.ne']
    exact moderate b1 b2 b3 b4 _ _ h5
  | some p =>
    obtain ⟨Su, e3, -⟩ := custom_value (hSu p h) ha.height ha.depth ha.bound ha.X
    simp only [e3, Option.bind_some, Conic.pyCustomClay, if_neg hG.ne']
    exact moderate b1 b2 b3 b4 _ _ h5

theorem custom_py {s : SoilModel.Custom} {a : Args} (hs : Spec.Sound.Lateral a.D a.L (.custom s)) (ha : Inside a) :
    ∃ c, s.py a = some c ∧ c.length = 15 := by
  obtain ⟨c, e, hc⟩ := custom_curve hs ha
  obtain ⟨-, -, -, -, -, -, hp, hy, -⟩ := hs
  unfold SoilModel.Custom.py SoilModel.guard
  rw [if_neg (not_lt.2 ha.bound)]
  simp only [e, Option.bind_eq_bind, Option.bind_some]
  exact multiply_some hy hp ha.X hc

theorem custom_hb {s : SoilModel.Custom} {a : Args} (hs : Spec.Sound.Lateral a.D a.L (.custom s)) (ha : Inside a) :
    ∃ c, s.hb a = some c ∧ c.length = 15 := by
  obtain ⟨hSu, hG0, -, -, hhb, -⟩ := hs
  obtain ⟨xu, n, k, yu, e1, b1, b2, b3, b4⟩ := conics_at hhb ha
  obtain ⟨G0, e2, hG⟩ := custom_value hG0 ha.height ha.depth ha.bound ha.X
  have h5 : 5 ≤ a.len := by rw [ha.len]; norm_num
  unfold SoilModel.Custom.hb SoilModel.guard
  rw [if_neg (not_lt.2 ha.bound), ← ha.len]
  simp only [e1, e2, Option.bind_eq_bind, Option.bind_some]
  cases h : s.Su with
  | none =>
    simp only [Conic.hbCustomSand, if_neg hG.ne']
    exact moderate b1 b2 b3 b4 _ _ h5
  | some p =>
    obtain ⟨Su, e3, -⟩ := custom_value (hSu p h) ha.height ha.depth ha.bound ha.X
    simp only [e3, Option.bind_some, Conic.hbCustomClay, if_neg hG.ne']
    exact moderate b1 b2 b3 b4 _ _ h5

theorem custom_mb {s : SoilModel.Custom} {a : Args} (hs : Spec.Sound.Lateral a.D a.L (.custom s)) (ha : Inside a) :
    ∃ c, s.mb a = some c ∧ c.length = 15 := by
  obtain ⟨hSu, hG0, -, -, -, hmb, -⟩ := hs
  obtain ⟨xu, n, k, yu, e1, b1, b2, b3, b4⟩ := conics_at hmb ha
  obtain ⟨G0, e2, hG⟩ := custom_value hG0 ha.height ha.depth ha.bound ha.X
  have h5 : 5 ≤ a.len := by rw [ha.len]; norm_num
  unfold SoilModel.Custom.mb SoilModel.guard
  rw [if_neg (not_lt.2 ha.bound), ← ha.len]
  simp only [e1, e2, Option.bind_eq_bind, Option.bind_some]
  cases h : s.Su with
  | none =>
    simp only [Conic.mbCustomSand, if_neg hG.ne']
    exact moderate b1 b2 b3 b4 _ _ h5
  | some p =>
    obtain ⟨Su, e3, -⟩ := custom_value (hSu p h) ha.height ha.depth ha.bound ha.X
    simp only [e3, Option.bind_some, Conic.mbCustomClay, if_neg hG.ne']
    exact moderate b1 b2 b3 b4 _ _ h5

theorem custom_mt {s : SoilModel.Custom} {a : Args} (hs : Spec.Sound.Lateral a.D a.L (.custom s)) (ha : Inside a) :
    ∃ T, s.mt a = some T ∧ T.length = 15 ∧ ∀ r ∈ T, r.length = 15 := by
  obtain ⟨c, e, hc⟩ := custom_curve hs ha
  obtain ⟨hSu, hG0, -, hmt, -, -, -, -, hm, ht⟩ := hs
  obtain ⟨xu, n, k, yu, e1, b1, b2, b3, b4⟩ := conics_at hmt ha
  obtain ⟨G0, e2, hG⟩ := custom_value hG0 ha.height ha.depth ha.bound ha.X
  have h5 : 5 ≤ a.len := by rw [ha.len]; norm_num
  unfold SoilModel.Custom.mt SoilModel.guard
  rw [if_neg (not_lt.2 ha.bound)]
  simp only [e, e1, e2, Option.bind_eq_bind, Option.bind_some]
  obtain ⟨rows, full, f1, f2, f3, f4⟩ := table_some (p := c) (len := a.len) (by rw [hc, ha.len])
    (g := fun q : ℝ × ℝ => match s.Su with
      | none => Conic.mtCustomSand a.sig G0 q.2 a.D xu n k yu a.len
      | some p => (valueAt p a.depth a.height a.X).bind fun Su => Conic.mtCustomClay Su G0 a.D xu n k yu a.len) (by
      intro q _
      cases h : s.Su with
      | none =>
        simp only [Conic.mtCustomSand, if_neg hG.ne']
        exact moderate b1 b2 b3 b4 _ _ h5
      | some p =>
        obtain ⟨Su, e3, -⟩ := custom_value (hSu p h) ha.height ha.depth ha.bound ha.X
        simp only [e3, Option.bind_some, Conic.mtCustomClay, if_neg hG.ne']
        exact moderate b1 b2 b3 b4 _ _ h5)
  obtain ⟨T, g1, g2, g3⟩ := multiplyRows_some ht hm ha.X f3 f4
  refine ⟨T, (congrArg (fun z => Option.bind z fun rows => (fill a.len rows).bind fun full =>
    multiplyRows s.t s.m a.X full) f1).trans ?_, by rw [g2, ha.len], fun r hr => by rw [g3 r hr, ha.len]⟩
  simp only [Option.bind_some, f2]
  exact g1

/-! ### all models -/

theorem model_py {m : SoilModel.Model} {a : Args} {e : Env} (hs : Spec.Sound.Lateral a.D a.L m) (ha : Inside a)
    (hXL : a.X ≤ a.L) (hd : Lateral.Draws 15 e.draws) : ∃ c, m.py a e = some c ∧ c.length = 15 := by
  cases m with
  | pisaClay s => exact pisa_py hs ha hXL
  | dunkirk s => exact dunkirk_py hs ha hXL
  | custom s => exact custom_py hs ha
  | apiSand s => exact sand_py hs ha
  | matlock s => exact matlock_py hs ha hd
  | rock s => exact rock_py hs ha

theorem model_mt {m : SoilModel.Model} {a : Args} {e : Env} (hs : Spec.Sound.Lateral a.D a.L m) (ha : Inside a)
    (hXL : a.X ≤ a.L) (hr : IsRandom e.tzDraws) (hsort : ∀ z, IsArgsort z (e.argsort z))
    (hsig : m.signature.2.2.1 = true) :
    ∃ T, m.mt a e = some T ∧ T.length = 15 ∧ ∀ r ∈ T, r.length = 15 := by
  cases m with
  | pisaClay s => exact pisa_mt hs ha hXL
  | dunkirk s => exact dunkirk_mt hs ha hXL
  | custom s => exact custom_mt hs ha
  | apiSand s => exact sand_mt hs ha hr hsort
  | matlock s => exact matlock_mt hs ha hr hsort
  | rock s => exact absurd hsig (by simp [SoilModel.Model.signature])

theorem model_hb {m : SoilModel.Model} {a : Args} (hs : Spec.Sound.Lateral a.D a.L m) (ha : Inside a)
    (hsig : m.signature.2.1 = true) : ∃ c, m.hb a = some c ∧ c.length = 15 := by
  cases m with
  | pisaClay s => exact pisa_hb hs ha
  | dunkirk s => exact dunkirk_hb hs ha
  | custom s => exact custom_hb hs ha
  | apiSand s => exact absurd hsig (by simp [SoilModel.Model.signature])
  | matlock s => exact absurd hsig (by simp [SoilModel.Model.signature])
  | rock s => exact absurd hsig (by simp [SoilModel.Model.signature])

theorem model_mb {m : SoilModel.Model} {a : Args} (hs : Spec.Sound.Lateral a.D a.L m) (ha : Inside a)
    (hsig : m.signature.2.2.2 = true) : ∃ c, m.mb a = some c ∧ c.length = 15 := by
  cases m with
  | pisaClay s => exact pisa_mb hs ha
  | dunkirk s => exact dunkirk_mb hs ha
  | custom s => exact custom_mb hs ha
  | apiSand s => exact absurd hsig (by simp [SoilModel.Model.signature])
  | matlock s => exact absurd hsig (by simp [SoilModel.Model.signature])
  | rock s => exact absurd hsig (by simp [SoilModel.Model.signature])

end OpenPile.Props.Defined

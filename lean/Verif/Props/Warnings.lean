/-
C87: a Model warns about negative lateral springs, and only about these.
-/
import Verif.Model.Warnings
import Verif.Spec.Usual
import Verif.Props.Creation

namespace OpenPile.Props.Warnings
open OpenPile OpenPile.Assemble OpenPile.SoilModel OpenPile.Params OpenPile.Axial
open OpenPile.Props.Assemble OpenPile.Props.Capacity OpenPile.Spec.Usual
open OpenPile.Spec.Sound (Slender Nonneg Positive Between)
open OpenPile.Props.Defined (Inside)

/-! ### what is reported -/

theorem negative_iff (c : Curve) : negative c = true ↔ ¬ NonNegative c := by
  unfold negative NonNegative
  rw [List.any_eq_true]
  push Not
  constructor
  · rintro ⟨q, hq, h⟩
    rw [Bool.or_eq_true, decide_eq_true_eq, decide_eq_true_eq] at h
    refine ⟨q, hq, fun h0 => ?_⟩
    rcases h with h | h
    · exact absurd h0 (not_le.2 h)
    · exact h
  · rintro ⟨q, hq, h⟩
    refine ⟨q, hq, ?_⟩
    rw [Bool.or_eq_true, decide_eq_true_eq, decide_eq_true_eq]
    by_cases h0 : 0 ≤ q.1
    · exact Or.inr (h h0)
    · exact Or.inl (not_le.1 h0)

theorem anyNode_iff (n : ℕ) (f : ℕ → Bool → Bool) : anyNode n f = true ↔ ∃ i b, i < n ∧ f i b = true := by
  unfold anyNode
  rw [List.any_eq_true]
  constructor
  · rintro ⟨i, hi, h⟩
    rw [Bool.or_eq_true] at h
    rcases h with h | h
    · exact ⟨i, false, List.mem_range.1 hi, h⟩
    · exact ⟨i, true, List.mem_range.1 hi, h⟩
  · rintro ⟨i, b, hi, h⟩
    refine ⟨i, List.mem_range.2 hi, ?_⟩
    cases b <;> simp [h]

/-- **C87, what is reported.** A message is printed for a kind of lateral spring if and only if some spring of that
kind has a negative displacement or a negative resistance. -/
theorem C87_reported (n : ℕ) (A : Arrays) :
    (Warning.py ∈ warnings n A ↔ ∃ i b, i < n ∧ ∃ q ∈ A.py i b, q.1 < 0 ∨ q.2 < 0) ∧
    (Warning.mt ∈ warnings n A ↔ ∃ i b, i < n ∧ ∃ c ∈ A.mt i b, ∃ q ∈ c, q.1 < 0 ∨ q.2 < 0) ∧
    (Warning.hb ∈ warnings n A ↔ ∃ q ∈ A.hb, q.1 < 0 ∨ q.2 < 0) ∧
    (Warning.mb ∈ warnings n A ↔ ∃ q ∈ A.mb, q.1 < 0 ∨ q.2 < 0) := by
  have hneg : ∀ c : Curve, negative c = true ↔ ∃ q ∈ c, q.1 < 0 ∨ q.2 < 0 := by
    intro c
    simp [negative]
  have key : ∀ (v : Warning), v ∈ warnings n A ↔
      (v = .py ∧ anyNode n (fun i b => negative (A.py i b)) = true) ∨
      (v = .mt ∧ anyNode n (fun i b => (A.mt i b).any negative) = true) ∨
      (v = .hb ∧ negative A.hb = true) ∨ (v = .mb ∧ negative A.mb = true) := by
    intro v
    unfold warnings
    simp only [List.mem_append]
    have : ∀ (b : Bool) (u : Warning), (v ∈ if b = true then [u] else []) ↔ v = u ∧ b = true := by
      intro b u
      cases b <;> simp
    rw [this, this, this, this]
    tauto
  refine ⟨?_, ?_, ?_, ?_⟩
  · rw [key]
    simp only [reduceCtorEq, false_and, or_false, true_and, anyNode_iff, hneg]
  · rw [key]
    simp only [reduceCtorEq, false_and, or_false, false_or, true_and, anyNode_iff, List.any_eq_true, hneg]
  · rw [key]
    simp only [reduceCtorEq, false_and, or_false, false_or, true_and, hneg]
  · rw [key]
    simp only [reduceCtorEq, false_and, false_or, true_and, hneg]

/-- No lateral spring is negative. -/
structure Fine (A : Arrays) : Prop where
  py : ∀ i b, NonNegative (A.py i b)
  mt : ∀ i b, ∀ c ∈ A.mt i b, NonNegative c
  hb : NonNegative A.hb
  mb : NonNegative A.mb

theorem silent {A : Arrays} (h : Fine A) (n : ℕ) : warnings n A = [] := by
  rw [List.eq_nil_iff_forall_not_mem]
  obtain ⟨h1, h2, h3, h4⟩ := C87_reported n A
  have hn : ∀ {q : ℝ × ℝ}, 0 ≤ q.1 ∧ 0 ≤ q.2 → ¬ (q.1 < 0 ∨ q.2 < 0) := by
    rintro q ⟨a, b⟩ (c | c)
    · exact absurd a (not_le.2 c)
    · exact absurd b (not_le.2 c)
  intro v
  cases v with
  | py =>
    rw [h1]
    rintro ⟨i, b, -, q, hq, hl⟩
    exact hn (h.py i b q hq) hl
  | mt =>
    rw [h2]
    rintro ⟨i, b, -, c, hc, q, hq, hl⟩
    exact hn (h.mt i b c hc q hq) hl
  | hb =>
    rw [h3]
    rintro ⟨q, hq, hl⟩
    exact hn (h.hb q hq) hl
  | mb =>
    rw [h4]
    rintro ⟨q, hq, hl⟩
    exact hn (h.mb q hq) hl

/-! ### multipliers and tables -/

theorem mult_nonneg {m : Mult} {X v : ℝ} (hm : Multiplier m) (hX : 0 ≤ X) (h : m.val X = some v) : 0 ≤ v := by
  cases m with
  | num x =>
    cases h
    exact hm
  | func f => exact hm X v hX h

theorem scale_nonneg {u v : ℝ} {l : List (ℝ × ℝ)} (hu : 0 ≤ u) (hv : 0 ≤ v) (hl : NonNegative l) :
    NonNegative (Conic.scale u v l) := by
  intro q hq
  obtain ⟨r, hr, rfl⟩ := List.mem_map.1 hq
  exact ⟨mul_nonneg (hl r hr).1 hu, mul_nonneg (hl r hr).2 hv⟩

theorem multiply_nonneg {y p : Mult} {X : ℝ} {l l' : List (ℝ × ℝ)} (hy : Multiplier y) (hp : Multiplier p) (hX : 0 ≤ X)
    (hl : NonNegative l) (h : multiply y p X l = some l') : NonNegative l' := by
  unfold multiply at h
  simp only [Option.bind_eq_bind, Option.bind_eq_some_iff, Option.pure_def, Option.some.injEq] at h
  obtain ⟨u, hu, v, hv, rfl⟩ := h
  exact scale_nonneg (mult_nonneg hy hX hu) (mult_nonneg hp hX hv) hl

theorem rows_nonneg {α : Type} {p : List α} {g : α → Option (List (ℝ × ℝ))} {rows full T : Table} {len : ℕ} {t m : Mult}
    {X : ℝ} (ht : Multiplier t) (hm : Multiplier m) (hX : 0 ≤ X) (h1 : p.mapM g = some rows)
    (hg : ∀ q ∈ p, ∀ r, g q = some r → NonNegative r) (h2 : fill len rows = some full)
    (h3 : multiplyRows t m X full = some T) : ∀ c ∈ T, NonNegative c := by
  unfold multiplyRows at h3
  simp only [Option.bind_eq_bind, Option.bind_eq_some_iff, Option.pure_def, Option.some.injEq] at h3
  obtain ⟨u, hu, v, hv, rfl⟩ := h3
  intro c hc
  obtain ⟨r, hr, rfl⟩ := List.mem_map.1 hc
  refine scale_nonneg (mult_nonneg ht hX hu) (mult_nonneg hm hX hv) ?_
  unfold fill at h2
  split_ifs at h2
  cases h2
  rcases List.mem_append.1 hr with hr | hr
  · obtain ⟨i, hi, rfl⟩ := List.getElem_of_mem hr
    have hall := Rotational.mapM_forall₂ h1
    have hl := hall.length_eq
    have := (List.forall₂_iff_get.1 hall).2 i (by omega) hi
    exact hg _ (List.get_mem p ⟨i, by omega⟩) _ this
  · rw [(List.mem_replicate.1 hr).2]
    intro q hq
    rw [(List.mem_replicate.1 hq).2]
    exact ⟨le_rfl, le_rfl⟩

theorem scaled_nonneg {xu n k yu sx sy : ℝ} {len : ℕ} {l : List (ℝ × ℝ)} (hx : 0 < xu) (hy : 0 < yu) (hn : 0 ≤ n)
    (hn1 : n < 1) (hsx : 0 ≤ sx) (hsy : 0 ≤ sy) (h : Conic.scaledConic xu n k yu sx sy len = some l) :
    NonNegative l := by
  unfold Conic.scaledConic at h
  rw [Option.map_eq_some_iff] at h
  obtain ⟨c, hc, rfl⟩ := h
  exact scale_nonneg hsx hsy fun q hq =>
    ⟨Conic.conicX_nonneg hx len (Conic.fst_mem hc hq), (Conic.C28_bounded hx hy hn hn1 hc hq).1⟩

theorem positive_nonneg {x y : List ℝ} {len : ℕ} {next : ℝ → ℕ → ℝ} (hn : ∀ v i, 0 ≤ v → 0 ≤ next v i)
    (h : SoilModel.positive x len next = some y) : ∀ v ∈ y, 0 ≤ v := by
  unfold SoilModel.positive at h
  simp only [Option.bind_eq_bind, Option.bind_eq_some_iff, Option.pure_def, Option.some.injEq] at h
  obtain ⟨last, hl, rfl⟩ := h
  have hf : ∀ v ∈ x.filter (fun v => decide (0 ≤ v)), 0 ≤ v := fun v hv => of_decide_eq_true (List.mem_filter.1 hv).2
  intro v hv
  rcases List.mem_append.1 hv with hv | hv
  · exact hf v hv
  · obtain ⟨i, -, rfl⟩ := List.mem_map.1 hv
    exact hn _ _ (hf _ (List.mem_of_getLast? hl))

/-- Rotational springs from friction are never negative: only the positive half of the friction curve is used. -/
theorem rotational_nonneg {c : List ℝ × List ℝ} {D : ℝ} {len : ℕ} {norms : List ℝ} {T : Table} (hD : 0 < D)
    (hn : ∀ w ∈ norms, 0 ≤ w) (h : rotational c D len norms = some T) : ∀ r ∈ T, NonNegative r := by
  unfold rotational at h
  simp only [Option.bind_eq_bind, Option.bind_eq_some_iff, Option.pure_def, if_neg hD.ne', Option.some.injEq] at h
  obtain ⟨t, ht, z, hz, rfl⟩ := h
  have ht := positive_nonneg (fun _ _ h => h) ht
  have hz := positive_nonneg (fun v i h => by positivity) hz
  intro r hr q hq
  obtain ⟨w, hw, rfl⟩ := List.mem_map.1 hr
  rw [← List.map_uncurry_zip_eq_zipWith] at hq
  obtain ⟨⟨a, b⟩, hab, rfl⟩ := List.mem_map.1 hq
  have ha := hz a (List.of_mem_zip hab).1
  have hb := ht b (List.of_mem_zip hab).2
  have hw := hn w hw
  have hpi := Real.pi_pos
  refine ⟨?_, ?_⟩
  · show 0 ≤ Real.arctan _
    rw [Real.arctan_nonneg]
    positivity
  · show 0 ≤ 1 / 4 * Real.pi * D ^ 2 * b * w
    positivity

/-! ### the reaction curves of the PISA models -/

section curves

variable {X D L Su G0 sig Dr p : ℝ} {len : ℕ} {l : List (ℝ × ℝ)}

theorem pyCowden_nonneg (hD : 0 < D) (hG : 0 < G0) (hS : 0 ≤ Su) (hX : 0 ≤ X) (h6 : X ≤ 6 * D)
    (h : Conic.pyCowden X Su G0 D len = some l) : NonNegative l := by
  unfold Conic.pyCowden at h
  rw [if_neg (by push Not; exact ⟨hD.ne', hG.ne'⟩)] at h
  obtain ⟨r0, r6⟩ := Defined.ratio hD hX h6
  simp only [mul_div_assoc] at h
  have he : Real.exp (-3085 / 10000 * (X / D)) ≤ 1 := Real.exp_le_one_iff.2 (by nlinarith)
  exact scaled_nonneg (by norm_num) (by linarith) (by linarith) (by linarith) (by positivity) (by positivity) h

theorem pyBothkennar_nonneg (hD : 0 < D) (hG : 0 < G0) (hS : 0 ≤ Su) (hX : 0 ≤ X) (h6 : X ≤ 6 * D)
    (h : Conic.pyBothkennar X Su G0 D len = some l) : NonNegative l := by
  unfold Conic.pyBothkennar at h
  rw [if_neg (by push Not; exact ⟨hD.ne', hG.ne'⟩)] at h
  obtain ⟨r0, r6⟩ := Defined.ratio hD hX h6
  simp only [mul_div_assoc] at h
  have he : Real.exp (-8456 / 10000 * (X / D)) ≤ 1 := Real.exp_le_one_iff.2 (by nlinarith)
  exact scaled_nonneg (by norm_num) (by linarith) (by linarith) (by linarith) (by positivity) (by positivity) h

theorem mtCowden_nonneg (hD : 0 < D) (hG : 0 < G0) (hS : 0 ≤ Su) (hX : 0 ≤ X) (h6 : X ≤ 6 * D)
    (h : Conic.mtCowden X Su G0 D len = some l) : NonNegative l := by
  unfold Conic.mtCowden at h
  rw [if_neg (by push Not; exact ⟨hD.ne', hG.ne'⟩)] at h
  obtain ⟨r0, r6⟩ := Defined.ratio hD hX h6
  simp only [mul_div_assoc] at h
  rw [if_neg (by linarith)] at h
  exact scaled_nonneg (div_pos (by linarith) (by linarith)) (by linarith) (by simp) (by norm_num) (by positivity)
    (by positivity) h

theorem mtBothkennar_nonneg (hD : 0 < D) (hG : 0 < G0) (hS : 0 ≤ Su) (hX : 0 ≤ X) (h6 : X ≤ 6 * D)
    (h : Conic.mtBothkennar X Su G0 D len = some l) : NonNegative l := by
  unfold Conic.mtBothkennar at h
  rw [if_neg (by push Not; exact ⟨hD.ne', hG.ne'⟩)] at h
  obtain ⟨r0, r6⟩ := Defined.ratio hD hX h6
  simp only [mul_div_assoc] at h
  rw [if_neg (by linarith)] at h
  exact scaled_nonneg (div_pos (by linarith) (by linarith)) (by linarith) (by simp) (by norm_num) (by positivity)
    (by positivity) h

theorem hbCowden_nonneg (hD : 0 < D) (hG : 0 < G0) (hS : 0 ≤ Su) (hL : Slender D L)
    (h : Conic.hbCowden Su G0 D L len = some l) : NonNegative l := by
  unfold Conic.hbCowden at h
  rw [if_neg (by push Not; exact ⟨hD.ne', hG.ne'⟩)] at h
  obtain ⟨r1, r6⟩ := Defined.slender_ratio hD hL
  simp only [mul_div_assoc] at h
  exact scaled_nonneg (by linarith) (by linarith) (by linarith) (by linarith) (by positivity) (by positivity) h

theorem hbBothkennar_nonneg (hD : 0 < D) (hG : 0 < G0) (hS : 0 ≤ Su) (hL : Slender D L)
    (h : Conic.hbBothkennar Su G0 D L len = some l) : NonNegative l := by
  unfold Conic.hbBothkennar at h
  rw [if_neg (by push Not; exact ⟨hD.ne', hG.ne'⟩)] at h
  obtain ⟨r1, r6⟩ := Defined.slender_ratio hD hL
  simp only [mul_div_assoc] at h
  exact scaled_nonneg (by linarith) (by linarith) (by linarith) (by linarith) (by positivity) (by positivity) h

theorem mbCowden_nonneg (hD : 0 < D) (hG : 0 < G0) (hS : 0 ≤ Su) (hL : Slender D L)
    (h : Conic.mbCowden Su G0 D L len = some l) : NonNegative l := by
  unfold Conic.mbCowden at h
  rw [if_neg (by push Not; exact ⟨hD.ne', hG.ne'⟩)] at h
  obtain ⟨r1, r6⟩ := Defined.slender_ratio hD hL
  simp only [mul_div_assoc] at h
  exact scaled_nonneg (by norm_num) (by linarith) (by linarith) (by linarith) (by positivity) (by positivity) h

theorem mbBothkennar_nonneg (hD : 0 < D) (hG : 0 < G0) (hS : 0 ≤ Su) (hL : Slender D L)
    (h : Conic.mbBothkennar Su G0 D L len = some l) : NonNegative l := by
  unfold Conic.mbBothkennar at h
  rw [if_neg (by push Not; exact ⟨hD.ne', hG.ne'⟩)] at h
  obtain ⟨r1, r6⟩ := Defined.slender_ratio hD hL
  simp only [mul_div_assoc] at h
  exact scaled_nonneg (by norm_num) (by linarith) (by linarith) (by linarith) (by positivity) (by positivity) h

theorem pyDunkirk_nonneg (hD : 0 < D) (hG : 0 < G0) (hs : 0 ≤ sig) (hX : 0 ≤ X) (hL0 : 0 < L) (hXL : X ≤ L)
    (d0 : 0 ≤ Dr) (d1 : Dr ≤ 100) (h : Conic.pyDunkirk sig X Dr G0 D L len = some l) : NonNegative l := by
  unfold Conic.pyDunkirk at h
  simp only at h
  rw [if_neg (by push Not; exact ⟨hD.ne', hL0.ne', hG.ne'⟩)] at h
  have s0 : 0 ≤ X / L := div_nonneg hX hL0.le
  have s1 : X / L ≤ 1 := (div_le_one hL0).2 hXL
  simp only [mul_div_assoc] at h
  have e0 : 0 ≤ Dr / 100 := by positivity
  have e1 : Dr / 100 ≤ 1 := by linarith
  generalize Dr / 100 = d at *
  generalize X / L = t at *
  have hyu : 0 < 3667 / 10000 + 2589 / 100 * d + (3375 / 10000 - 89 / 10 * d) * t := by
    nlinarith [mul_nonneg e0 s0, mul_nonneg e0 (sub_nonneg.2 s1)]
  exact scaled_nonneg (by linarith) hyu (by linarith) (by linarith) (by positivity) (by positivity) h

theorem mtDunkirk_nonneg (hD : 0 < D) (hG : 0 < G0) (hs : 0 ≤ sig) (hX : 0 ≤ X) (hL0 : 0 < L) (hXL : X ≤ L)
    (d0 : 0 ≤ Dr) (h : Conic.mtDunkirk sig X Dr G0 p D L len = some l) : NonNegative l := by
  unfold Conic.mtDunkirk at h
  simp only at h
  rw [if_neg (by push Not; exact ⟨hD.ne', hL0.ne', hG.ne'⟩)] at h
  have s0 : 0 ≤ X / L := div_nonneg hX hL0.le
  have s1 : X / L ≤ 1 := (div_le_one hL0).2 hXL
  have e0 : 0 ≤ Dr / 100 := by positivity
  simp only [mul_div_assoc] at h
  have hy : 0 < 2605 / 10000 + (-1989 / 10000 + 2019 / 10000 * (Dr / 100)) * (X / L) := by
    nlinarith [mul_nonneg e0 s0]
  exact scaled_nonneg (div_pos hy (by norm_num)) hy le_rfl (by norm_num) (by positivity) (by positivity) h

theorem hbDunkirk_nonneg (hD : 0 < D) (hG : 0 < G0) (hs : 0 ≤ sig) (hL : Slender D L) (d0 : 0 ≤ Dr) (d1 : Dr ≤ 100)
    (h : Conic.hbDunkirk sig Dr G0 D L len = some l) : NonNegative l := by
  unfold Conic.hbDunkirk at h
  simp only at h
  rw [if_neg (by push Not; exact ⟨hD.ne', hG.ne'⟩)] at h
  obtain ⟨r1, r6⟩ := Defined.slender_ratio hD hL
  simp only [mul_div_assoc] at h
  have e0 : 0 ≤ Dr / 100 := by positivity
  have e1 : Dr / 100 ≤ 1 := by linarith
  generalize Dr / 100 = d at *
  generalize L / D = r at *
  have a1 := mul_nonneg e0 (sub_nonneg.2 r6)
  have a2 := mul_nonneg (sub_nonneg.2 e1) (sub_nonneg.2 r6)
  have a3 := mul_nonneg e0 (sub_nonneg.2 r1)
  have a4 := mul_nonneg (sub_nonneg.2 e1) (sub_nonneg.2 r1)
  exact scaled_nonneg (by nlinarith) (by nlinarith) (by nlinarith) (by nlinarith) (by positivity) (by positivity) h

theorem mbDunkirk_nonneg (hD : 0 < D) (hG : 0 < G0) (hs : 0 ≤ sig) (hL : Slender D L) (d0 : 0 ≤ Dr) (d1 : Dr ≤ 100)
    (h : Conic.mbDunkirk sig Dr G0 D L len = some l) : NonNegative l := by
  unfold Conic.mbDunkirk at h
  simp only at h
  rw [if_neg (by push Not; exact ⟨hD.ne', hG.ne'⟩)] at h
  obtain ⟨r1, r6⟩ := Defined.slender_ratio hD hL
  simp only [mul_div_assoc] at h
  have e0 : 0 ≤ Dr / 100 := by positivity
  have e1 : Dr / 100 ≤ 1 := by linarith
  generalize Dr / 100 = d at *
  generalize L / D = r at *
  have a1 := mul_nonneg e0 (sub_nonneg.2 r6)
  have a2 := mul_nonneg (sub_nonneg.2 e1) (sub_nonneg.2 r6)
  have a3 := mul_nonneg e0 (sub_nonneg.2 r1)
  have a4 := mul_nonneg (sub_nonneg.2 e1) (sub_nonneg.2 r1)
  exact scaled_nonneg (by norm_num) (by nlinarith) (by linarith) (by linarith) (by positivity) (by positivity) h

end curves

/-! ### the springs of the models -/

theorem guard_some {α : Type} {a : Args} {r : Option α} {c : α} (h : SoilModel.guard a r = some c) : r = some c := by
  unfold SoilModel.guard at h
  split_ifs at h
  exact h

theorem pisa_py_nonneg {s : PisaClay} {a : Args} (hs : Lateral a.D a.L (.pisaClay s)) (ha : Inside a) (hXL : a.X ≤ a.L)
    {c : Curve} (h : s.py a = some c) : NonNegative c := by
  obtain ⟨hL, h1, h2, hp, hy, -⟩ := hs
  obtain ⟨Su, e1, hS⟩ := Defined.nonneg_value h1 ha.height ha.depth ha.bound
  obtain ⟨G0, e2, hG⟩ := Defined.positive_value h2 ha.height ha.depth ha.bound
  have h := guard_some h
  simp only [e1, e2, Option.bind_eq_bind, Option.bind_some, Option.bind_eq_some_iff] at h
  obtain ⟨l, hl, h⟩ := h
  refine multiply_nonneg hy hp ha.X ?_ h
  unfold PisaClay.pyCurve at hl
  have h6 := hXL.trans hL.2
  cases hk : s.kind <;> rw [hk] at hl
  · exact pyBothkennar_nonneg ha.D hG hS ha.X h6 hl
  · exact pyCowden_nonneg ha.D hG hS ha.X h6 hl

theorem pisa_mt_nonneg {s : PisaClay} {a : Args} (hs : Lateral a.D a.L (.pisaClay s)) (ha : Inside a) (hXL : a.X ≤ a.L)
    {T : Table} (h : s.mt a = some T) : ∀ c ∈ T, NonNegative c := by
  obtain ⟨hL, h1, h2, -, -, hm, ht⟩ := hs
  obtain ⟨Su, e1, hS⟩ := Defined.nonneg_value h1 ha.height ha.depth ha.bound
  obtain ⟨G0, e2, hG⟩ := Defined.positive_value h2 ha.height ha.depth ha.bound
  have h := guard_some h
  simp only [e1, e2, Option.bind_eq_bind, Option.bind_some, Option.bind_eq_some_iff] at h
  obtain ⟨l, -, rows, h3, full, h4, h5⟩ := h
  refine rows_nonneg ht hm ha.X h3 (fun q _ r hr => ?_) h4 h5
  have h6 := hXL.trans hL.2
  cases hk : s.kind <;> rw [hk] at hr
  · exact mtBothkennar_nonneg ha.D hG hS ha.X h6 hr
  · exact mtCowden_nonneg ha.D hG hS ha.X h6 hr

theorem pisa_hb_nonneg {s : PisaClay} {a : Args} (hs : Lateral a.D a.L (.pisaClay s)) (ha : Inside a)
    {c : Curve} (h : s.hb a = some c) : NonNegative c := by
  obtain ⟨hL, h1, h2, -⟩ := hs
  obtain ⟨Su, e1, hS⟩ := Defined.nonneg_value h1 ha.height ha.depth ha.bound
  obtain ⟨G0, e2, hG⟩ := Defined.positive_value h2 ha.height ha.depth ha.bound
  have h := guard_some h
  simp only [e1, e2, Option.bind_eq_bind, Option.bind_some] at h
  cases hk : s.kind <;> rw [hk] at h
  · exact hbBothkennar_nonneg ha.D hG hS hL h
  · exact hbCowden_nonneg ha.D hG hS hL h

theorem pisa_mb_nonneg {s : PisaClay} {a : Args} (hs : Lateral a.D a.L (.pisaClay s)) (ha : Inside a)
    {c : Curve} (h : s.mb a = some c) : NonNegative c := by
  obtain ⟨hL, h1, h2, -⟩ := hs
  obtain ⟨Su, e1, hS⟩ := Defined.nonneg_value h1 ha.height ha.depth ha.bound
  obtain ⟨G0, e2, hG⟩ := Defined.positive_value h2 ha.height ha.depth ha.bound
  have h := guard_some h
  simp only [e1, e2, Option.bind_eq_bind, Option.bind_some] at h
  cases hk : s.kind <;> rw [hk] at h
  · exact mbBothkennar_nonneg ha.D hG hS hL h
  · exact mbCowden_nonneg ha.D hG hS hL h

section dunkirk

variable {s : Dunkirk} {a : Args} {c : Curve}

theorem dunkirk_py_nonneg (hs : Lateral a.D a.L (.dunkirk s)) (ha : Inside a) (hXL : a.X ≤ a.L)
    (h : s.py a = some c) : NonNegative c := by
  obtain ⟨hL, h1, h2, hp, hy, -⟩ := hs
  obtain ⟨Dr, e1, d0, d1⟩ := Defined.between_value h1 ha.height ha.depth ha.bound
  obtain ⟨G0, e2, hG⟩ := Defined.positive_value h2 ha.height ha.depth ha.bound
  have h := guard_some h
  simp only [e1, e2, Option.bind_eq_bind, Option.bind_some, Option.bind_eq_some_iff] at h
  obtain ⟨l, hl, h⟩ := h
  exact multiply_nonneg hy hp ha.X
    (pyDunkirk_nonneg ha.D hG ha.sig ha.X (lt_of_lt_of_le ha.D hL.1) hXL d0 d1 hl) h

theorem dunkirk_mt_nonneg (hs : Lateral a.D a.L (.dunkirk s)) (ha : Inside a) (hXL : a.X ≤ a.L) {T : Table}
    (h : s.mt a = some T) : ∀ c ∈ T, NonNegative c := by
  obtain ⟨hL, h1, h2, -, -, hm, ht⟩ := hs
  obtain ⟨Dr, e1, d0, d1⟩ := Defined.between_value h1 ha.height ha.depth ha.bound
  obtain ⟨G0, e2, hG⟩ := Defined.positive_value h2 ha.height ha.depth ha.bound
  have h := guard_some h
  simp only [e1, e2, Option.bind_eq_bind, Option.bind_some, Option.bind_eq_some_iff] at h
  obtain ⟨l, -, rows, h3, full, h4, h5⟩ := h
  exact rows_nonneg ht hm ha.X h3
    (fun q _ r hr => mtDunkirk_nonneg ha.D hG ha.sig ha.X (lt_of_lt_of_le ha.D hL.1) hXL d0 hr) h4 h5

theorem dunkirk_hb_nonneg (hs : Lateral a.D a.L (.dunkirk s)) (ha : Inside a) (h : s.hb a = some c) :
    NonNegative c := by
  obtain ⟨hL, h1, h2, -⟩ := hs
  obtain ⟨Dr, e1, d0, d1⟩ := Defined.between_value h1 ha.height ha.depth ha.bound
  obtain ⟨G0, e2, hG⟩ := Defined.positive_value h2 ha.height ha.depth ha.bound
  have h := guard_some h
  simp only [e1, e2, Option.bind_eq_bind, Option.bind_some] at h
  exact hbDunkirk_nonneg ha.D hG ha.sig hL d0 d1 h

theorem dunkirk_mb_nonneg (hs : Lateral a.D a.L (.dunkirk s)) (ha : Inside a) (h : s.mb a = some c) :
    NonNegative c := by
  obtain ⟨hL, h1, h2, -⟩ := hs
  obtain ⟨Dr, e1, d0, d1⟩ := Defined.between_value h1 ha.height ha.depth ha.bound
  obtain ⟨G0, e2, hG⟩ := Defined.positive_value h2 ha.height ha.depth ha.bound
  have h := guard_some h
  simp only [e1, e2, Option.bind_eq_bind, Option.bind_some] at h
  exact mbDunkirk_nonneg ha.D hG ha.sig hL d0 d1 h

end dunkirk

section custom

variable {s : SoilModel.Custom} {a : Args} {c : Curve}

theorem conics_some {k : Conics} {xu n kk yu : ℝ} (hk : Shape k) (ha : Inside a) (h : k.at a = some (xu, n, kk, yu)) :
    0 < xu ∧ 0 < yu ∧ 0 ≤ n ∧ n < 1 := by
  obtain ⟨h1, h2, h4⟩ := hk
  obtain ⟨x', e1, b1⟩ := Defined.custom_value h1 ha.height ha.depth ha.bound ha.X
  obtain ⟨n', e2, b2, b3⟩ := Defined.custom_value h2 ha.height ha.depth ha.bound ha.X
  obtain ⟨y', e4, b4⟩ := Defined.custom_value h4 ha.height ha.depth ha.bound ha.X
  unfold Conics.at at h
  simp only [e1, e2, e4, Option.bind_eq_bind, Option.bind_some, Option.bind_eq_some_iff, Option.pure_def,
    Option.some.injEq, Prod.mk.injEq] at h
  obtain ⟨k', -, rfl, rfl, -, rfl⟩ := h
  exact ⟨b1, b4, b2, b3⟩

theorem custom_curve_nonneg (hs : Lateral a.D a.L (.custom s)) (ha : Inside a) (h : s.pyCurve a = some c) :
    NonNegative c := by
  obtain ⟨hSu, hG0, hpy, -⟩ := hs
  obtain ⟨G0, e2, hG⟩ := Defined.custom_value hG0 ha.height ha.depth ha.bound ha.X
  have hD := ha.D
  have hsig := ha.sig
  unfold SoilModel.Custom.pyCurve at h
  simp only [e2, Option.bind_eq_bind, Option.bind_some, Option.bind_eq_some_iff] at h
  obtain ⟨⟨xu, n, k, yu⟩, e1, h⟩ := h
  obtain ⟨b1, b2, b3, b4⟩ := conics_some hpy ha e1
  cases hp : s.Su with
  | none =>
    simp only [hp, Conic.pyCustomSand, if_neg hG.ne'] at h
    exact scaled_nonneg b1 b2 b3 b4 (by positivity) (by positivity) h
  | some p =>
    obtain ⟨Su, e3, hS⟩ := Defined.custom_value (hSu p hp) ha.height ha.depth ha.bound ha.X
    simp only [hp, e3, Option.bind_some, Conic.pyCustomClay, if_neg hG.ne'] at h
    exact scaled_nonneg b1 b2 b3 b4 (by positivity) (by positivity) h

theorem custom_py_nonneg (hs : Lateral a.D a.L (.custom s)) (ha : Inside a) (h : s.py a = some c) :
    NonNegative c := by
  have h := guard_some h
  simp only [Option.bind_eq_bind, Option.bind_eq_some_iff] at h
  obtain ⟨l, hl, h⟩ := h
  have := custom_curve_nonneg hs ha hl
  obtain ⟨-, -, -, -, -, -, hp, hy, -⟩ := hs
  exact multiply_nonneg hy hp ha.X this h

theorem custom_hb_nonneg (hs : Lateral a.D a.L (.custom s)) (ha : Inside a) (h : s.hb a = some c) :
    NonNegative c := by
  obtain ⟨hSu, hG0, -, -, hhb, -⟩ := hs
  obtain ⟨G0, e2, hG⟩ := Defined.custom_value hG0 ha.height ha.depth ha.bound ha.X
  have hD := ha.D
  have hsig := ha.sig
  have h := guard_some h
  simp only [e2, Option.bind_eq_bind, Option.bind_some, Option.bind_eq_some_iff] at h
  obtain ⟨⟨xu, n, k, yu⟩, e1, h⟩ := h
  obtain ⟨b1, b2, b3, b4⟩ := conics_some hhb ha e1
  cases hp : s.Su with
  | none =>
    simp only [hp, Conic.hbCustomSand, if_neg hG.ne'] at h
    exact scaled_nonneg b1 b2 b3 b4 (by positivity) (by positivity) h
  | some p =>
    obtain ⟨Su, e3, hS⟩ := Defined.custom_value (hSu p hp) ha.height ha.depth ha.bound ha.X
    simp only [hp, e3, Option.bind_some, Conic.hbCustomClay, if_neg hG.ne'] at h
    exact scaled_nonneg b1 b2 b3 b4 (by positivity) (by positivity) h

theorem custom_mb_nonneg (hs : Lateral a.D a.L (.custom s)) (ha : Inside a) (h : s.mb a = some c) :
    NonNegative c := by
  obtain ⟨hSu, hG0, -, -, -, hmb, -⟩ := hs
  obtain ⟨G0, e2, hG⟩ := Defined.custom_value hG0 ha.height ha.depth ha.bound ha.X
  have hD := ha.D
  have hsig := ha.sig
  have h := guard_some h
  simp only [e2, Option.bind_eq_bind, Option.bind_some, Option.bind_eq_some_iff] at h
  obtain ⟨⟨xu, n, k, yu⟩, e1, h⟩ := h
  obtain ⟨b1, b2, b3, b4⟩ := conics_some hmb ha e1
  cases hp : s.Su with
  | none =>
    simp only [hp, Conic.mbCustomSand, if_neg hG.ne'] at h
    exact scaled_nonneg b1 b2 b3 b4 (by positivity) (by positivity) h
  | some p =>
    obtain ⟨Su, e3, hS⟩ := Defined.custom_value (hSu p hp) ha.height ha.depth ha.bound ha.X
    simp only [hp, e3, Option.bind_some, Conic.mbCustomClay, if_neg hG.ne'] at h
    exact scaled_nonneg b1 b2 b3 b4 (by positivity) (by positivity) h

theorem custom_mt_nonneg (hs : Lateral a.D a.L (.custom s)) (ha : Inside a) {T : Table} (h : s.mt a = some T) :
    ∀ c ∈ T, NonNegative c := by
  have h := guard_some h
  simp only [Option.bind_eq_bind, Option.bind_eq_some_iff] at h
  obtain ⟨l, hl, rows, h3, full, h4, h5⟩ := h
  have hl := custom_curve_nonneg hs ha hl
  obtain ⟨hSu, hG0, -, hmt, -, -, -, -, hm, ht⟩ := hs
  obtain ⟨G0, e2, hG⟩ := Defined.custom_value hG0 ha.height ha.depth ha.bound ha.X
  have hD := ha.D
  have hsig := ha.sig
  refine rows_nonneg ht hm ha.X h3 (fun q hq r hr => ?_) h4 h5
  have hq2 := (hl q hq).2
  simp only [e2, Option.bind_some, Option.bind_eq_some_iff] at hr
  obtain ⟨⟨xu, n, k, yu⟩, e1, hr⟩ := hr
  obtain ⟨b1, b2, b3, b4⟩ := conics_some hmt ha e1
  cases hp : s.Su with
  | none =>
    simp only [hp, Conic.mtCustomSand, if_neg hG.ne'] at hr
    exact scaled_nonneg b1 b2 b3 b4 (by positivity) (by positivity) hr
  | some p =>
    obtain ⟨Su, e3, hS⟩ := Defined.custom_value (hSu p hp) ha.height ha.depth ha.bound ha.X
    simp only [hp, e3, Option.bind_some, Conic.mtCustomClay, if_neg hG.ne'] at hr
    exact scaled_nonneg b1 b2 b3 b4 (by positivity) (by positivity) hr

end custom

section api

variable {a : Args} {c : Curve} {e : Env}

theorem subgrade_nonneg {s : ApiSand} {phi D L k : ℝ} (hs : Lateral D L (.apiSand s)) (ha : Inside a)
    (hphi : 0 ≤ phi) (h : s.subgrade a phi = some k) : 0 ≤ k := by
  obtain ⟨hphi', hm, -, -⟩ := hs
  have key : Spec.Sound.Lateral D L (.apiSand { s with p := .num 1, y := .num 1 }) := ⟨hphi', hm, trivial, trivial⟩
  obtain ⟨k', e, hk⟩ := Defined.subgrade_some key ha hphi
  have : s.subgrade a phi = some k' := e
  rw [h, Option.some.injEq] at this
  rw [this]
  exact hk

theorem sand_py_nonneg {s : ApiSand} {D L : ℝ} (hs : Lateral D L (.apiSand s)) (ha : Inside a) (h : s.py a = some c) :
    NonNegative c := by
  have hs' := hs
  obtain ⟨⟨hi, h90, hphi⟩, -, hp, hy⟩ := hs
  obtain ⟨phi, e1, b1, b2⟩ := Defined.between_value hphi ha.height ha.depth ha.bound
  have h := guard_some h
  simp only [e1, Option.bind_eq_bind, Option.bind_some, Option.bind_eq_some_iff] at h
  obtain ⟨k, e2, l, hl, h⟩ := h
  have hk := subgrade_nonneg hs' ha b1 e2
  obtain ⟨l', kphi, hl', -, -, -, -, hb⟩ := Lateral.C30_curve (sig := a.sig) (X := a.X) (phi := phi) (D := a.D)
    (kind := s.kind) (w := a.belowWater) (k := k) (ymax := a.ymax) (len := a.len) b1 (by linarith) ha.sig ha.X ha.D hk
    ha.ymax.ge
  rw [hl, Option.some.injEq] at hl'
  subst hl'
  exact multiply_nonneg hy hp ha.X (fun q hq => ⟨(hb q hq).1, (hb q hq).2.1⟩) h

theorem sand_mt_nonneg {s : ApiSand} {D L : ℝ} (hs : Lateral D L (.apiSand s)) (ha : Inside a) {T : Table}
    (h : s.mt a e = some T) : ∀ c ∈ T, NonNegative c := by
  have h := guard_some h
  simp only [Option.bind_eq_bind, Option.bind_eq_some_iff] at h
  obtain ⟨phi, -, l, hl, k, -, h⟩ := h
  have hl := sand_py_nonneg hs ha hl
  refine rotational_nonneg ha.D ?_ h
  have hp : ∀ v ∈ l.map Prod.snd, 0 ≤ v := by
    intro v hv
    obtain ⟨q, hq, rfl⟩ := List.mem_map.1 hv
    exact (hl q hq).2
  intro w hw
  unfold ApiSand.normalised at hw
  cases hm : (l.map Prod.snd).max? with
  | none =>
    rw [hm] at hw
    exact hp w hw
  | some m =>
    rw [hm] at hw
    simp only at hw
    split_ifs at hw with h0
    · obtain ⟨v, hv, rfl⟩ := List.mem_map.1 hw
      exact div_nonneg (hp v hv) h0.le
    · exact hp w hw

theorem matlock_py_nonneg {s : MatlockClay} {D L : ℝ} (hs : Lateral D L (.matlock s)) (ha : Inside a)
    (hd : Lateral.Draws 15 e.draws) (h : s.py a e = some c) : NonNegative c := by
  obtain ⟨h1, h2, hJ, hp, hy⟩ := hs
  obtain ⟨Su, e1, hSu⟩ := Defined.nonneg_value h1 ha.height ha.depth ha.bound
  obtain ⟨eps, e2, heps⟩ := Defined.positive_value h2 ha.height ha.depth ha.bound
  have hc : Lateral.ClayData a.sig a.X Su eps a.D s.J := ⟨ha.sig, ha.X, hSu, heps, ha.D, hJ⟩
  have h8 : max 8 a.len = 15 := by rw [ha.len]; rfl
  have h := guard_some h
  simp only [e1, e2, Option.bind_eq_bind, Option.bind_some] at h
  cases hk : s.curve <;> rw [hk] at h <;> obtain ⟨l, hl, h⟩ := Option.bind_eq_some_iff.1 h <;>
    refine multiply_nonneg hy hp ha.X ?_ h
  · obtain ⟨l', hl', ht⟩ := Lateral.C31_api_clay (kind := s.kind) (len := a.len) hc (h8.symm ▸ hd) ha.ymax.ge
    rw [hl', Option.some.injEq] at hl
    subst hl
    exact ht.table.nonneg
  · obtain ⟨l', hl', ht⟩ := Lateral.C31_modified_matlock (kind := s.kind) (len := a.len) hc (h8.symm ▸ hd) ha.ymax.ge
    rw [hl', Option.some.injEq] at hl
    subst hl
    exact ht.table.nonneg

theorem matlock_mt_nonneg {s : MatlockClay} (ha : Inside a) {T : Table} (h : s.mt a e = some T) :
    ∀ c ∈ T, NonNegative c := by
  have h := guard_some h
  simp only [Option.bind_eq_bind, Option.bind_eq_some_iff] at h
  obtain ⟨Su, -, k, -, h⟩ := h
  exact rotational_nonneg ha.D (fun w hw => by rw [(List.mem_replicate.1 hw).2]; exact zero_le_one) h

theorem rock_py_nonneg {s : WeakRock} {D L : ℝ} (hs : Lateral D L (.rock s)) (ha : Inside a) (h : s.py a = some c) :
    NonNegative c := by
  obtain ⟨h1, h2, hk, hz, hp, hy⟩ := hs
  obtain ⟨Ei, e1, b1⟩ := Defined.positive_value h1 ha.height ha.depth ha.bound
  obtain ⟨qu, e2, b2⟩ := Defined.nonneg_value h2 ha.height ha.depth ha.bound
  obtain ⟨l, hl, hl', -⟩ := Lateral.C32_curve (Ei := Ei) (qu := qu) (RQD := s.RQD) (xr := a.X + s.ztop) (D := a.D)
    (k := s.k) (len := a.len) ⟨b1, b2, add_nonneg ha.X hz, ha.D, hk⟩
  have h := guard_some h
  simp only [e1, e2, hl, Option.bind_eq_bind, Option.bind_some] at h
  exact multiply_nonneg hy hp ha.X hl'.nonneg h

end api

/-- No curve of a model with usual parameters is negative. -/
theorem model_nonneg {m : SoilModel.Model} {a : Args} {e : Env} (hs : Lateral a.D a.L m) (ha : Inside a)
    (hXL : a.X ≤ a.L) : (Lateral.Draws 15 e.draws → ∀ c, m.py a e = some c → NonNegative c) ∧
      (m.signature.2.2.1 = true → ∀ T, m.mt a e = some T → ∀ c ∈ T, NonNegative c) := by
  cases m with
  | pisaClay s => exact ⟨fun _ c h => pisa_py_nonneg hs ha hXL h, fun _ T h => pisa_mt_nonneg hs ha hXL h⟩
  | dunkirk s => exact ⟨fun _ c h => dunkirk_py_nonneg hs ha hXL h, fun _ T h => dunkirk_mt_nonneg hs ha hXL h⟩
  | custom s => exact ⟨fun _ c h => custom_py_nonneg hs ha h, fun _ T h => custom_mt_nonneg hs ha h⟩
  | apiSand s => exact ⟨fun _ c h => sand_py_nonneg hs ha h, fun _ T h => sand_mt_nonneg hs ha h⟩
  | matlock s => exact ⟨fun hd c h => matlock_py_nonneg hs ha hd h, fun _ T h => matlock_mt_nonneg ha h⟩
  | rock s => exact ⟨fun _ c h => rock_py_nonneg hs ha h, fun h => absurd h (by simp [SoilModel.Model.signature])⟩

theorem model_base_nonneg {m : SoilModel.Model} {a : Args} (hs : Lateral a.D a.L m) (ha : Inside a) :
    (m.signature.2.1 = true → ∀ c, m.hb a = some c → NonNegative c) ∧
      (m.signature.2.2.2 = true → ∀ c, m.mb a = some c → NonNegative c) := by
  cases m with
  | pisaClay s => exact ⟨fun _ c h => pisa_hb_nonneg hs ha h, fun _ c h => pisa_mb_nonneg hs ha h⟩
  | dunkirk s => exact ⟨fun _ c h => dunkirk_hb_nonneg hs ha h, fun _ c h => dunkirk_mb_nonneg hs ha h⟩
  | custom s => exact ⟨fun _ c h => custom_hb_nonneg hs ha h, fun _ c h => custom_mb_nonneg hs ha h⟩
  | apiSand s => exact ⟨fun h => by simp [SoilModel.Model.signature] at h, fun h => by simp [SoilModel.Model.signature] at h⟩
  | matlock s => exact ⟨fun h => by simp [SoilModel.Model.signature] at h, fun h => by simp [SoilModel.Model.signature] at h⟩
  | rock s => exact ⟨fun h => by simp [SoilModel.Model.signature] at h, fun h => by simp [SoilModel.Model.signature] at h⟩

/-! ### assembly -/

variable {S : Input} {env : Draws}

/-- The element lies inside the layer and below ground, the tip below it, and its lateral model has usual
parameters. -/
structure UsualRow (S : Input) (l : SoilLayer) (r : Row) : Prop where
  layer : l.bottom < l.top
  inside : r.top ≤ l.top ∧ l.bottom ≤ r.bottom
  order : r.bottom ≤ r.top
  ground : r.top ≤ S.ground
  tip : S.tip ≤ r.bottom
  profile : S.profileBottom ≤ S.ground
  section_ : ∃ s, r.sec = some s ∧ 0 < s.diameter ∧ ∀ m, l.lateral = some m → Lateral s.diameter (S.ground - S.tip) m
  stress : ∀ b, ∃ sig, r.sig b = some sig ∧ 0 ≤ sig
  tipStress : ∃ sig, sigTip S = some sig ∧ 0 ≤ sig

theorem UsualRow.node {l : SoilLayer} {r : Row} (h : UsualRow S l r) (b : Bool) :
    ∃ a, nodeArgs S l r b = some a ∧ Inside a ∧ a.X ≤ a.L ∧ ∀ m, l.lateral = some m → Lateral a.D a.L m := by
  obtain ⟨s, hs, hD, hm⟩ := h.section_
  obtain ⟨sig, hsig, h0⟩ := h.stress b
  have hz : r.bottom ≤ r.z b ∧ r.z b ≤ r.top := by
    unfold Row.z
    cases b
    · exact ⟨h.order, le_rfl⟩
    · exact ⟨le_rfl, h.order⟩
  have hab : |r.z b - S.ground| ≤ S.ground - S.tip := by
    rw [abs_sub_comm, abs_of_nonneg (by linarith [hz.2, h.ground])]
    linarith [hz.1, h.tip]
  refine ⟨_, by unfold nodeArgs; rw [hsig, hs]; rfl,
    ⟨h0, abs_nonneg _, sub_pos.2 h.layer, ?_, ?_, hD, rfl, rfl⟩, hab, hm⟩
  · exact sub_nonneg.2 (hz.2.trans h.inside.1)
  · exact sub_le_sub_left (h.inside.2.trans hz.1) _

theorem UsualRow.base {l : SoilLayer} {r : Row} (h : UsualRow S l r) (ht : tipIn S l = true) :
    ∃ a, baseArgs S l r = some a ∧ Inside a ∧ ∀ m, l.lateral = some m → Lateral a.D a.L m := by
  obtain ⟨s, hs, hD, hm⟩ := h.section_
  obtain ⟨sig, hsig, h0⟩ := h.tipStress
  have ht : l.top ≥ S.tip ∧ l.bottom ≤ S.tip := of_decide_eq_true ht
  refine ⟨_, by unfold baseArgs; rw [hsig, hs]; rfl,
    ⟨h0, sub_nonneg.2 h.profile, sub_pos.2 h.layer, sub_nonneg.2 ht.1, sub_le_sub_left ht.2 _, hD, rfl, rfl⟩, hm⟩

theorem zero_fine : Fine Arrays.zero := by
  have hz : NonNegative zeros := fun q hq => by
    rw [(List.mem_replicate.1 hq).2]
    exact ⟨le_rfl, le_rfl⟩
  exact ⟨fun _ _ => hz, fun _ _ c hc => by rw [(List.mem_replicate.1 hc).2]; exact hz, hz, hz⟩

theorem getD_of {α : Type} {P : α → Prop} {o : Option α} {d : α} (ho : ∀ c, o = some c → P c) (hd : P d) :
    P (o.getD d) := by
  cases o with
  | none => exact hd
  | some c => exact ho c rfl

theorem step_fine {l : SoilLayer} {r : Row} {i : ℕ} {A A' : Arrays} (henv : ∀ z j b, Lateral.Draws 15 (env.py z j b).draws)
    (hr : ∀ m, l.lateral = some m → UsualRow S l r) (hA : Fine A) (h : step S env l A (r, i) = some A') : Fine A' := by
  have f := step_facts h
  refine ⟨fun j b => ?_, fun j b => ?_, ?_, ?_⟩
  · rw [f.py]
    split_ifs with hj
    · refine getD_of (fun c hc => ?_) (hA.py j b)
      unfold cPy at hc
      cases hm : l.lateral with
      | none => rw [hm] at hc; cases hc
      | some m =>
        rw [hm] at hc
        simp only at hc
        split_ifs at hc
        obtain ⟨a, e1, ha, hX, hl⟩ := (hr m hm).node b
        simp only [pyNode, e1, Option.bind_eq_bind, Option.bind_some, Option.bind_eq_some_iff] at hc
        obtain ⟨c', e2, hc⟩ := hc
        rw [(store_some hc).1]
        exact (model_nonneg (hl m hm) ha hX).1 (henv _ _ _) c' e2
    · exact hA.py j b
  · rw [f.mt]
    split_ifs with hj
    · refine getD_of (P := fun T => ∀ c ∈ T, NonNegative c) (fun T hc => ?_) (hA.mt j b)
      unfold cMt at hc
      cases hm : l.lateral with
      | none => rw [hm] at hc; cases hc
      | some m =>
        rw [hm] at hc
        simp only at hc
        split_ifs at hc with hsg
        rw [Bool.and_eq_true] at hsg
        obtain ⟨a, e1, ha, hX, hl⟩ := (hr m hm).node b
        simp only [mtNode, e1, Option.bind_eq_bind, Option.bind_some, Option.bind_eq_some_iff] at hc
        obtain ⟨T', e2, hc⟩ := hc
        unfold storeTable at hc
        split_ifs at hc
        cases hc
        exact (model_nonneg (hl m hm) ha hX).2 hsg.1 _ e2
    · exact hA.mt j b
  · rw [f.hb]
    refine getD_of (fun c hc => ?_) hA.hb
    unfold cHb at hc
    cases hm : l.lateral with
    | none => rw [hm] at hc; cases hc
    | some m =>
      rw [hm] at hc
      simp only at hc
      split_ifs at hc with hsg
      simp only [Bool.and_eq_true] at hsg
      obtain ⟨a, e1, ha, hl⟩ := (hr m hm).base hsg.1
      simp only [hbTip, e1, Option.bind_eq_bind, Option.bind_some, Option.bind_eq_some_iff] at hc
      obtain ⟨c', e2, hc⟩ := hc
      rw [(store_some hc).1]
      exact (model_base_nonneg (hl m hm) ha).1 hsg.2.1 c' e2
  · rw [f.mb]
    refine getD_of (fun c hc => ?_) hA.mb
    unfold cMb at hc
    cases hm : l.lateral with
    | none => rw [hm] at hc; cases hc
    | some m =>
      rw [hm] at hc
      simp only at hc
      split_ifs at hc with hsg
      simp only [Bool.and_eq_true] at hsg
      obtain ⟨a, e1, ha, hl⟩ := (hr m hm).base hsg.1
      simp only [mbTip, e1, Option.bind_eq_bind, Option.bind_some, Option.bind_eq_some_iff] at hc
      obtain ⟨c', e2, hc⟩ := hc
      rw [(store_some hc).1]
      exact (model_base_nonneg (hl m hm) ha).2 hsg.2.1 c' e2

theorem fold_fine (henv : ∀ z j b, Lateral.Draws 15 (env.py z j b).draws) (L : List Call)
    (hL : ∀ k ∈ L, ∀ m, k.1.lateral = some m → UsualRow S k.1 k.2.1) {A A' : Arrays} (hA : Fine A) (h : L.foldlM (body S env) A = some A') :
    Fine A' := by
  induction L generalizing A with
  | nil =>
    cases h
    exact hA
  | cons k L ih =>
    rw [List.foldlM_cons] at h
    simp only [Option.bind_eq_bind, Option.bind_eq_some_iff] at h
    obtain ⟨B, h1, h2⟩ := h
    exact ih (fun k' hk' => hL k' (List.mem_cons_of_mem _ hk')) (step_fine henv (hL k (by simp)) hA h1) h2

/-- Elements with usual lateral models: no lateral spring is negative. -/
theorem create_fine (henv : ∀ z j b, Lateral.Draws 15 (env.py z j b).draws)
    (hlat : ∀ r ∈ S.rows, ∀ l ∈ owners S r, ∀ m, l.lateral = some m → UsualRow S l r) {A : Arrays} (hA : createSprings S env = some A) :
    Fine A := by
  obtain ⟨B, hB, rfl⟩ := create_some hA
  rw [fill_eq] at hB
  have := fold_fine henv (calls S) (fun k hk => by
    obtain ⟨l, r, i⟩ := k
    obtain ⟨h1, h2⟩ := mem_calls.1 hk
    exact hlat r (List.mem_of_getElem? h1) l h2) zero_fine hB
  exact ⟨this.py, this.mt, this.hb, this.mb⟩

/-- **C87, no false alarm.** Pile and profile as in C54, all lateral models with parameters in their usual ranges (PISA
models: slenderness between 1 and 6, which includes the range the message recommends; no negative multiplier): whatever
the axial models, switches and random numbers, a Model that is created is created without a message.  Partial: layers
meet exactly and lie on the 0.1 mm grid like all other levels, and the pile head is not below ground. -/
theorem C87_silent_partial {p : Pile.Pile ℝ} {sp : SoilProfile} {x2mesh : List ℝ} {c top tipz : ℝ}
    (h : Weight.Setup p sp.geometry x2mesh c top tipz) (w : Switches) {table : List (ℝ × Pile.Section ℝ)}
    (htab : Model.SortedRows p table) (henv : ∀ z j b, Lateral.Draws 15 (env.py z j b).draws)
    (hlat : ∀ l ∈ sp.layers, ∀ m, l.lateral = some m → ∀ s ∈ p.sections,
      Lateral s.diameter (sp.topElevation - tipz) m) {v : List Warning}
    (hv : modelWarnings p sp x2mesh c w table env = some v) : v = [] := by
  obtain ⟨C, hC, hm⟩ := Weight.mesh_facts h
  obtain ⟨C', S, water, hC', hS, hw1, hw2, hlay, hgr, -, htip, helts, hrows, r, hr, hrg⟩ := C54_mesh h w table
  rw [hC, Option.some.injEq] at hC'
  subst hC'
  obtain ⟨sections, mat, hp, hb⟩ := h.pile
  obtain ⟨hst, hmemp⟩ := Mesh.mkPile_sections sections mat p hp
  have hpb : S.profileBottom = sp.geometry.bottomElevation := by
    have hS' := hS
    simp only [input, Option.bind_eq_bind, Option.bind_eq_some_iff, Option.pure_def, Option.some.injEq] at hS'
    obtain ⟨rows, -, tip, -, -, -, -, -, rfl⟩ := hS'
    rfl
  have hprof : S.profileBottom ≤ S.ground := by
    rw [hpb, hgr]
    unfold Soil.Profile.bottomElevation
    have : 0 ≤ (sp.geometry.layers.map (fun l => |l.top - l.bottom|)).sum :=
      List.sum_nonneg (by simp)
    simp only [SoilProfile.geometry] at this ⊢
    linarith
  have hstress : ∀ z, z ≤ sp.topElevation → 0 ≤ Spec.Soil.stressAt water z sp.geometry.layers := fun z hz =>
    (Model.C10_nonneg sp.geometry water z h.built (fun l hl => (hm.lays l hl).2.2) hz).2
  have hsec : ∀ q ∈ S.rows, ∃ s ∈ p.sections, q.sec = some s ∧ 0 < s.diameter := by
    intro q hq
    obtain ⟨h1, h2, -, -⟩ := hrows q hq
    have he : (q.top, q.bottom) ∈ C.elements := by
      rw [← helts]
      exact List.mem_map.2 ⟨q, hq, rfl⟩
    obtain ⟨s, hs⟩ := hm.section_ _ he
    have hs' : s ∈ p.sections.filter (fun s => decide (q.top ≤ s.top ∧ q.bottom ≥ s.bottom)) := by
      rw [hs]
      exact List.mem_singleton.2 rfl
    obtain ⟨hs1, hs2⟩ := List.mem_filter.1 hs'
    have hs2 : q.top ≤ s.top ∧ q.bottom ≥ s.bottom := of_decide_eq_true hs2
    obtain ⟨t, ht, ht'⟩ := Model.C09_own_or_above sections mat p hp hb table htab s hs1 q.top
      (lt_of_le_of_lt hs2.2 h1) hs2.1
    have htm : t ∈ p.sections := by
      rcases ht' with rfl | ht'
      · exact hs1
      · exact ht'.1
    exact ⟨t, htm, by rw [h2, ht], ((Pile.built_iff t).1 (hb t ((hmemp t).1 htm))).2.1⟩
  have hrm : r ∈ S.rows := List.mem_of_getLast? hr.last
  obtain ⟨hr1, -, hr3, -⟩ := hrows r hrm
  obtain ⟨-, -, e2⟩ := hr3 hrg
  have hsr : ∀ q ∈ S.rows, ∀ l ∈ owners S q, UsualRow S l q := by
    intro q hq l hl
    obtain ⟨h1, -, h3, h4⟩ := hrows q hq
    have hle : q.top ≤ sp.topElevation := by
      by_contra hlt
      rw [h4 (not_le.1 hlt)] at hl
      cases hl
    obtain ⟨-, e3, e4⟩ := h3 hle
    have hlm : l ∈ sp.layers := by
      rw [← hlay]
      exact (List.mem_filter.1 hl).1
    have he : (q.top, q.bottom) ∈ C.elements := by
      rw [← helts]
      exact List.mem_map.2 ⟨q, hq, rfl⟩
    obtain ⟨s, hsm, hs, hD⟩ := hsec q hq
    exact {
      layer := (hm.lays l.toLayer (List.mem_map.2 ⟨l, hlm, rfl⟩)).1
      inside := of_decide_eq_true (List.mem_filter.1 hl).2
      order := h1.le
      ground := by rw [hgr]; exact hle
      tip := by rw [htip]; exact (hm.range _ he).2
      profile := hprof
      section_ := ⟨s, hs, hD, fun m hm' => by rw [hgr, htip]; exact hlat l hlm m hm' s hsm⟩
      stress := fun b => by
        cases b
        · exact ⟨_, e3, hstress _ hle⟩
        · exact ⟨_, e4, hstress _ (h1.le.trans hle)⟩
      tipStress := ⟨_, by rw [sigTip, hr.last, Option.bind_some, e2], hstress _ (hr1.le.trans hrg)⟩ }
  unfold modelWarnings at hv
  simp only [hS, Option.bind_eq_bind, Option.bind_some, Option.bind_eq_some_iff, Option.pure_def, Option.some.injEq] at hv
  obtain ⟨A, hA, rfl⟩ := hv
  exact silent (create_fine henv (fun q hq l hl _ _ => hsr q hq l hl) hA) _

/-! ### Cowden clay outside the range of the PISA project -/

/-- **C87, slender piles in Cowden clay are reported.** A node between 6.1 and 14.7 diameters below ground in Cowden
clay gets negative moments, and the Model says so. -/
theorem C87_warns_slender {A : Arrays} (hA : createSprings S env = some A) {j : ℕ} {r : Row} (hr : S.rows[j]? = some r)
    {l : SoilLayer} (hl : owners S r = [l]) (b : Bool) {s : PisaClay} (hm : l.lateral = some (.pisaClay s))
    (hk : s.kind = .cowden) (hon : S.distributedMoment = true) (hSu : ∀ d v, layered s.Su d (l.top - l.bottom) = some v → 0 < v)
    (hmul : ∀ X v, s.m.val X = some v → 0 < v) {g : Pile.Section ℝ} (hsec : r.sec = some g) (hD : 0 < g.diameter)
    (h1 : 61 / 10 * g.diameter ≤ |(if b then r.bottom else r.top) - S.ground|)
    (h2 : |(if b then r.bottom else r.top) - S.ground| ≤ 147 / 10 * g.diameter) :
    Warning.mt ∈ warnings S.rows.length A := by
  obtain ⟨sig, g', -, hg, h⟩ := (C54_mt hA hr hl b).1 _ hm rfl hon
  rw [hsec, Option.some.injEq] at hg
  subst hg
  obtain ⟨hlen, Su, G0, tm, mm, c, e1, -, -, e4, e5, -, e7⟩ := Rotational.C63_pisa_clay s _ h
  rw [hk] at e5
  obtain ⟨m, hhead, hneg⟩ := Conic.C29_violated_mt_cowden hD (hSu _ _ e1) h1 h2 e5
  have hc : (0, m) ∈ c := List.mem_of_head? hhead
  rw [(C87_reported _ _).2.1]
  refine ⟨j, b, (List.getElem?_eq_some_iff.1 hr).1, c.map (fun q => (q.1 * tm, q.2 * mm)), ?_, (0 * tm, m * mm),
    List.mem_map.2 ⟨(0, m), hc, rfl⟩, Or.inr (mul_neg_of_neg_of_pos hneg (hmul _ _ e4))⟩
  rw [e7]
  exact List.mem_replicate.2 ⟨by norm_num, rfl⟩

/-! ### axial springs are not checked -/

/-- **C87, refuted for axial springs.** Sand whose interface friction angle is between 90 and 180 degrees (a single
number is only checked to be positive): the friction springs push the pile in the direction it moves, and the Model is
created without a message. -/
theorem C87_violated_axial {A : Arrays} (hA : createSprings S env = some A)
    (henv : ∀ z j b, IsRandom (env.tz z j b).tzDraws ∧ ∀ x, IsArgsort x ((env.tz z j b).argsort x))
    (henv' : ∀ z j b, Lateral.Draws 15 (env.py z j b).draws) (hlat : ∀ l ∈ S.layers, l.lateral = none) {j : ℕ} {r : Row}
    (hr : S.rows[j]? = some r) {l : SoilLayer} (hl : owners S r = [l]) (b : Bool) {m : SandAxial}
    (hm : l.axial = some (.sand m)) (hon : S.distributedAxial = true) {delta : ℝ}
    (hd : layered m.delta (l.top - (if b then r.bottom else r.top)) (l.top - l.bottom) = some delta) (h90 : 90 < delta)
    (h180 : delta < 180) (hK : 0 < m.K) (ht : 0 < m.tMul) (hz : 0 < m.zMul) {g : Pile.Section ℝ} (hsec : r.sec = some g)
    (hD : 0 < g.diameter) {sig : ℝ} (hsig : (if b then r.sigBottom else r.sigTop) = some sig) (hs : 0 < sig) :
    warnings S.rows.length A = [] ∧ ∃ q ∈ A.tz j b, q.1 < 0 ∧ 0 < q.2 := by
  constructor
  · refine silent (create_fine henv' (fun q _ l hl m hm => ?_) hA) _
    rw [hlat l (List.mem_filter.1 hl).1] at hm
    cases hm
  · obtain ⟨sig', g', c, e1, e2, e3, e4⟩ := (C54_tz hA hr hl b).2.1 m hm hon
    rw [hsig, Option.some.injEq] at e1
    rw [hsec, Option.some.injEq] at e2
    subst e1 e2
    obtain ⟨f, hf⟩ := Friction.C35_sand_total sig delta m.K
    have hneg := Friction.C35_violated_negative_friction sig delta m.K f hs hK h90 h180 hf
    have hper : 0 < g.diameter * Real.pi := mul_pos hD Real.pi_pos
    obtain ⟨ct, tens, e5, -, hct, -⟩ :=
      AxialModel.circumference_eq m.plugging (g.diameter * Real.pi) (g.diameter * Real.pi) m.tensionMul hper.le hper
    obtain ⟨k, e6, -, h3, -⟩ := Props.Axial.C33_backbone_sand tens 15 (env.tz l.top j b).tzDraws (env.tz l.top j b).argsort
      (henv _ _ _).1 (henv _ _ _).2
    simp only [SandAxial.tzSpring, hd, e5, tzApiSand, hf, e6, Option.bind_eq_bind, Option.bind_some, Option.pure_def,
      Option.some.injEq] at e3
    subst e3
    have hn := h3 (0.0254, 1) (by simp [sandNodes])
    rw [e4, zip_scaleCurve, zip_scaleCurve]
    refine ⟨_, List.mem_map.2 ⟨_, List.mem_map.2 ⟨_, List.mem_map.2 ⟨_, hn, rfl⟩, rfl⟩, rfl⟩, ?_, ?_⟩
    · simp only
      nlinarith
    · simp only
      have : f * (m.tMul * ct) < 0 := mul_neg_of_neg_of_pos hneg (by positivity)
      nlinarith

/-! ### cases -/

/-- One element of a pile of 2 m diameter, from 12.2 to 12.4 m below ground. -/
noncomputable def lastElement : Row := ⟨-(122 / 10), -(124 / 10), some 100, some 102, some ⟨1, -(124 / 10), 2, 1 / 20⟩⟩

/-- The springs of this element, with only the switches `moment` and `axial` on. -/
noncomputable def single (l : SoilLayer) (moment axial : Bool) : Input where
  rows := [lastElement]
  layers := [l]
  ground := 0
  profileBottom := -20
  water := 0
  tip := -(124 / 10)
  tipArea := 1
  tipFootprint := 3
  distributedLateral := false
  distributedMoment := moment
  distributedAxial := axial
  baseShear := false
  baseMoment := false
  baseAxial := false

theorem single_owner (lat : Option SoilModel.Model) (ax : Option AxialModel) (u v : Bool) :
    owners (single ⟨⟨0, -20, 18⟩, lat, ax⟩ u v) lastElement = [⟨⟨0, -20, 18⟩, lat, ax⟩] := by
  unfold owners
  have : (single ⟨⟨0, -20, 18⟩, lat, ax⟩ u v).layers = [⟨⟨0, -20, 18⟩, lat, ax⟩] := rfl
  rw [this, List.filter_cons_of_pos]
  · rfl
  · norm_num [lastElement]

theorem single_some {l : SoilLayer} {u v : Bool} {env : Draws}
    (h : (step (single l u v) env l Arrays.zero (lastElement, 0)).isSome) :
    ∃ A, createSprings (single l u v) env = some A := by
  have : (fillArrays (single l u v) env).isSome := by
    rw [fill_eq, foldlM_success _ body_success]
    rintro ⟨l', r, i⟩ hk
    obtain ⟨h1, h2⟩ := mem_calls.1 hk
    have h3 : l' ∈ (single l u v).layers := (List.mem_filter.1 h2).1
    simp only [single, List.mem_singleton] at h3
    subst h3
    match i with
    | 0 =>
      cases h1
      exact h
    | (k + 1) => cases h1
  obtain ⟨A, hA⟩ := Option.isSome_iff_exists.1 this
  exact ⟨_, by rw [createSprings, hA]; rfl⟩

/-- Cowden clay with constant strength and stiffness. -/
noncomputable def cowden : PisaClay := ⟨.cowden, .scalar 60, .scalar 6000, .num 1, .num 1, .num 1, .num 1⟩

/-- Just beyond 6 diameters the p-y and m-t curves of Cowden clay exist. -/
theorem cowden_mt {a : Args} (hD : a.D = 2) (h1 : 122 / 10 ≤ a.X) (h2 : a.X ≤ 124 / 10) (h0 : a.depth ≤ a.height)
    (hh : a.height ≠ 0) (h15 : a.len = 15) : ∃ T, cowden.mt a = some T ∧ T.length = 15 ∧ ∀ r ∈ T, r.length = 15 := by
  have e1 : layered cowden.Su a.depth a.height = some 60 := by simp [cowden, layered, topBottom, hh]
  have e2 : layered cowden.G0 a.depth a.height = some 6000 := by simp [cowden, layered, topBottom, hh]
  have r1 : 61 / 10 ≤ a.X / a.D := by rw [hD]; linarith
  have r2 : a.X / a.D ≤ 62 / 10 := by rw [hD]; linarith
  have hDp : 0 < a.D := by rw [hD]; norm_num
  have hpy : ∃ l, Conic.pyCowden a.X 60 6000 a.D a.len = some l ∧ l.length = a.len := by
    unfold Conic.pyCowden
    rw [if_neg (by push Not; exact ⟨hDp.ne', by norm_num⟩)]
    simp only [mul_div_assoc]
    have he : Real.exp (-3085 / 10000 * (a.X / a.D)) ≤ 1 := Real.exp_le_one_iff.2 (by nlinarith)
    have he0 := Real.exp_pos (-3085 / 10000 * (a.X / a.D))
    refine Defined.steep (by norm_num) (by linarith) (by linarith) (by linarith) ?_ _ _ (by omega)
    have : (9390 / 10000 + -3345 / 100000 * (a.X / a.D)) *
        (107 / 10 + -7101 / 1000 * Real.exp (-3085 / 10000 * (a.X / a.D))) ≤
        (9390 / 10000 + -3345 / 100000 * (a.X / a.D)) * (107 / 10) := mul_le_mul_of_nonneg_left (by linarith) (by linarith)
    refine this.trans ?_
    nlinarith
  have hmt : ∃ l, Conic.mtCowden a.X 60 6000 a.D a.len = some l := by
    unfold Conic.mtCowden
    rw [if_neg (by push Not; exact ⟨hDp.ne', by norm_num⟩)]
    simp only [mul_div_assoc]
    rw [if_neg (by linarith)]
    have hk : 8 / 10 < 1420 / 1000 + -9643 / 100000 * (a.X / a.D) := by linarith
    have hm : 2899 / 10000 + -4775 / 100000 * (a.X / a.D) < 0 := by linarith
    have hm' : -(7 / 1000) < 2899 / 10000 + -4775 / 100000 * (a.X / a.D) := by linarith
    generalize 1420 / 1000 + -9643 / 100000 * (a.X / a.D) = k at *
    generalize 2899 / 10000 + -4775 / 100000 * (a.X / a.D) = mu at *
    have hx : mu / k < 0 := div_neg_of_neg_of_pos hm (by linarith)
    have hx' : -(9 / 1000) < mu / k := by
      rw [lt_div_iff₀ (by linarith)]
      linarith
    obtain ⟨rows, hr⟩ := Defined.mapM_some (f := fun x => (Conic.conicY (mu / k) (0 + 0 * (a.X / a.D))
        (max (mu / (mu / k)) k) mu x).map (fun y => (x, y))) (l := Conic.conicX (mu / k) a.len) (by
      intro x hx2
      unfold Conic.conicY
      by_cases hc : |x - mu / k| < 1 / 100
      · exact ⟨_, by rw [if_pos hc]; rfl⟩
      · exfalso
        apply hc
        have hx3 : 11 / 10 * (mu / k) ≤ x ∧ x ≤ 0 := by
          unfold Conic.conicX at hx2
          rcases List.mem_append.1 hx2 with hx2 | hx2
          · rcases List.mem_append.1 hx2 with hx2 | hx2
            · simp only [List.mem_cons, List.not_mem_nil, or_false] at hx2
              rcases hx2 with rfl | rfl | rfl | rfl <;> constructor <;> linarith
            · rw [h15] at hx2
              unfold Conic.linspace at hx2
              rw [if_neg (by norm_num)] at hx2
              obtain ⟨i, hi, rfl⟩ := List.mem_map.1 hx2
              have hi : (i : ℝ) ≤ 9 := by exact_mod_cast Nat.lt_succ_iff.1 (List.mem_range.1 hi)
              norm_num
              constructor <;> nlinarith [Nat.cast_nonneg (α := ℝ) i]
          · rw [List.mem_singleton.1 hx2]
            constructor <;> linarith
        obtain ⟨hx3, hx4⟩ := hx3
        rw [abs_lt]
        constructor <;> linarith)
    unfold Conic.scaledConic Conic.conic
    rw [if_neg (by push Not; exact ⟨hx.ne, by omega⟩)]
    exact ⟨_, by simp only [hr]; rfl⟩
  obtain ⟨p, e3, hp⟩ := hpy
  obtain ⟨c, e4⟩ := hmt
  have hc : c.length = a.len := by
    have e4' := e4
    unfold Conic.mtCowden at e4'
    simp only at e4'
    split_ifs at e4'
    exact Rotational.scaledConic_length e4'
  obtain ⟨rows, full, e5, e6, k1, k2⟩ := Defined.table_some (p := p)
    (g := fun _ => Conic.mtCowden a.X 60 6000 a.D a.len) hp (fun q _ => ⟨c, e4, hc⟩)
  obtain ⟨T, e7, k3, k4⟩ := Defined.multiplyRows_some (t := .num 1) (m := .num 1) (X := a.X) trivial trivial
    (le_trans (by norm_num) h1) k1 k2
  refine ⟨T, ?_, by rw [k3, h15], fun r hr => by rw [k4 r hr, h15]⟩
  unfold PisaClay.mt SoilModel.guard
  rw [if_neg (not_lt.2 h0)]
  simp only [e1, e2, Option.bind_eq_bind, Option.bind_some]
  have e3' : cowden.pyCurve a 60 6000 = some p := e3
  rw [e3', Option.bind_some]
  refine (congrArg (fun o : Option (List Curve) => o.bind fun rows => (fill a.len rows).bind fun full =>
    multiplyRows cowden.t cowden.m a.X full) e5).trans ?_
  simp only [Option.bind_some, e6]
  exact e7

/-- A pile of 2 m diameter with its tip at 12.4 m in Cowden clay: the springs are created and the moments reported. -/
example : ∃ A, createSprings (single ⟨⟨0, -20, 18⟩, some (.pisaClay cowden), none⟩ true false) drawsExample = some A ∧
    Warning.mt ∈ warnings 1 A := by
  have hmt : ∀ b, ∃ T, mtNode (single ⟨⟨0, -20, 18⟩, some (.pisaClay cowden), none⟩ true false)
      ⟨⟨0, -20, 18⟩, some (.pisaClay cowden), none⟩ (.pisaClay cowden) lastElement b (drawsExample.mt 0 0 b) = some T := by
    intro b
    have ha : ∃ a, nodeArgs (single ⟨⟨0, -20, 18⟩, some (.pisaClay cowden), none⟩ true false)
        ⟨⟨0, -20, 18⟩, some (.pisaClay cowden), none⟩ lastElement b = some a ∧ a.D = 2 ∧ 122 / 10 ≤ a.X ∧ a.X ≤ 124 / 10 ∧
        a.depth ≤ a.height ∧ a.height ≠ 0 ∧ a.len = 15 := by
      cases b
      · refine ⟨_, rfl, rfl, ?_, ?_, ?_, ?_, rfl⟩ <;> norm_num [lastElement, single, Row.z] <;> norm_num [abs_of_nonneg, abs_of_neg]
      · refine ⟨_, rfl, rfl, ?_, ?_, ?_, ?_, rfl⟩ <;> norm_num [lastElement, single, Row.z] <;> norm_num [abs_of_nonneg, abs_of_neg]
    obtain ⟨a, e1, h1, h2, h3, h4, h5, h6⟩ := ha
    obtain ⟨T, e2, k1, k2⟩ := cowden_mt h1 h2 h3 h4 h5 h6
    have e3 : SoilModel.Model.mt (.pisaClay cowden) a (drawsExample.mt 0 0 b) = some T := e2
    exact ⟨T, by simp only [mtNode, e1, e3, Option.bind_eq_bind, Option.bind_some, storeTable_defined k1 k2]⟩
  obtain ⟨t, ht⟩ := hmt false
  obtain ⟨u, hu⟩ := hmt true
  obtain ⟨A, hA⟩ := single_some (l := ⟨⟨0, -20, 18⟩, some (.pisaClay cowden), none⟩) (u := true) (v := false)
    (env := drawsExample) (by
      simp only [step, axialStep, lateralStep, pyStep, mtStep, hbStep, mbStep]
      have f1 : (single ⟨⟨0, -20, 18⟩, some (.pisaClay cowden), none⟩ true false).distributedLateral = false := rfl
      have f2 : (single ⟨⟨0, -20, 18⟩, some (.pisaClay cowden), none⟩ true false).distributedMoment = true := rfl
      have f4 : (single ⟨⟨0, -20, 18⟩, some (.pisaClay cowden), none⟩ true false).baseShear = false := rfl
      have f5 : (single ⟨⟨0, -20, 18⟩, some (.pisaClay cowden), none⟩ true false).baseMoment = false := rfl
      simp only [f1, f2, f4, f5, ht, hu, Bool.and_false, Bool.false_eq_true, if_false, if_true, Option.bind_eq_bind,
        Option.bind_some, Option.pure_def, Bool.and_true, SoilModel.Model.signature, Option.isSome_some])
  refine ⟨A, hA, ?_⟩
  refine C87_warns_slender hA (j := 0) (r := lastElement) rfl (single_owner _ _ _ _) true rfl rfl rfl ?_ ?_
    (g := ⟨1, -(124 / 10), 2, 1 / 20⟩) rfl (by norm_num) ?_ ?_
  · intro d v hv
    simp only [cowden, layered, topBottom] at hv
    norm_num at hv
    rw [← hv]
    norm_num
  · intro X v hv
    cases hv
    norm_num
  · norm_num [lastElement, single]
  · norm_num [lastElement, single]

/-- Sand with an interface friction angle of 120 degrees. -/
noncomputable def wrongSand : SandAxial := ⟨.scalar 120, 8 / 10, .none, 1, 1, 1, 1, 1, 1⟩

/-- The Model is created, no message is printed, and the friction acts the wrong way. -/
example : ∃ A, createSprings (single ⟨⟨0, -20, 18⟩, none, some (.sand wrongSand)⟩ false true) drawsExample = some A ∧
    warnings 1 A = [] ∧ ∃ q ∈ A.tz 0 true, q.1 < 0 ∧ 0 < q.2 := by
  have hd : ∀ d, layered wrongSand.delta d (0 - -20) = some 120 := by
    intro d
    norm_num [wrongSand, layered, topBottom]
  have htz : ∀ b, ∃ c, tzNode (single ⟨⟨0, -20, 18⟩, none, some (.sand wrongSand)⟩ false true)
      ⟨⟨0, -20, 18⟩, none, some (.sand wrongSand)⟩ (.sand wrongSand) lastElement b (drawsExample.tz 0 0 b) = some c := by
    intro b
    have hsig : ∃ sig, lastElement.sig b = some sig := by cases b <;> exact ⟨_, rfl⟩
    obtain ⟨sig, e1⟩ := hsig
    have e2 : lastElement.sec = some ⟨1, -(124 / 10), 2, 1 / 20⟩ := rfl
    obtain ⟨f, hf⟩ := Friction.C35_sand_total sig 120 wrongSand.K
    have hper : (0 : ℝ) < 2 * Real.pi := mul_pos two_pos Real.pi_pos
    obtain ⟨ct, tens, e5, -⟩ :=
      AxialModel.circumference_eq wrongSand.plugging (2 * Real.pi) (2 * Real.pi) wrongSand.tensionMul hper.le hper
    obtain ⟨k, e6, h2, -⟩ := Props.Axial.C33_backbone_sand tens 15 (drawsExample.tz 0 0 b).tzDraws (drawsExample.tz 0 0 b).argsort
      (good_draws.1 _ _ _).1 (good_draws.1 _ _ _).2
    rw [← Option.isSome_iff_exists]
    simp only [tzNode, e1, e2, SandAxial.tzSpring, hd, Pile.Section.outerPerimeter, tzApiSand, e5, e6, hf,
      Option.bind_eq_bind, Option.bind_some, Option.pure_def]
    exact store_defined (Sized.scale (Sized.scale ⟨h2.disp, h2.force⟩ _ _) _ _)
  obtain ⟨t, ht⟩ := htz false
  obtain ⟨u, hu⟩ := htz true
  obtain ⟨A, hA⟩ := single_some (l := ⟨⟨0, -20, 18⟩, none, some (.sand wrongSand)⟩) (u := false) (v := true)
    (env := drawsExample) (by
      simp only [step, axialStep, lateralStep]
      have f3 : (single ⟨⟨0, -20, 18⟩, none, some (.sand wrongSand)⟩ false true).distributedAxial = true := rfl
      have f6 : (single ⟨⟨0, -20, 18⟩, none, some (.sand wrongSand)⟩ false true).baseAxial = false := rfl
      simp only [f3, f6, ht, hu, Bool.and_false, Bool.false_eq_true, if_false, if_true, Option.bind_eq_bind,
        Option.bind_some, Option.pure_def, Option.isSome_some])
  refine ⟨A, hA, C87_violated_axial hA good_draws.1 good_lateral.1 ?_ (j := 0) (r := lastElement) rfl
    (single_owner _ _ _ _) true (m := wrongSand) rfl rfl (delta := 120) (hd _) (by norm_num) (by norm_num)
    (by norm_num [wrongSand]) (by norm_num [wrongSand]) (by norm_num [wrongSand])
    (g := ⟨1, -(124 / 10), 2, 1 / 20⟩) rfl (by norm_num) (sig := 102) rfl (by norm_num)⟩
  intro l hl
  simp only [single, List.mem_singleton] at hl
  rw [hl]

/-- The tube of 2 m diameter, 10 m in PISA clay or Dunkirk sand of 45 %: created without a message. -/
example (w : Switches) (k : ClayKind) :
    modelWarnings Creation.tube (Creation.soil
      (.pisaClay ⟨k, .scalar 60, .list [1000, 20000], .num 1, .num 1, .num 1, .num 1⟩)) [] 1 w
      (Model.stableRows Creation.tube) drawsExample = some [] ∧
    modelWarnings Creation.tube (Creation.soil
      (.dunkirk ⟨.scalar 45, .list [1000, 20000], .num 1, .num 1, .num 1, .num 1⟩)) [] 1 w
      (Model.stableRows Creation.tube) drawsExample = some [] := by
  have key : ∀ m, Spec.Sound.Lateral 2 10 m → Lateral 2 10 m → modelWarnings Creation.tube (Creation.soil m) [] 1 w
      (Model.stableRows Creation.tube) drawsExample = some [] := by
    intro m h1 h2
    obtain ⟨C, S, water, fc, ft, A, -, hS, -, -, -, -, -, -, -, -, hA⟩ := Creation.created h1 w
    have hv : modelWarnings Creation.tube (Creation.soil m) [] 1 w (Model.stableRows Creation.tube) drawsExample =
        some (warnings S.rows.length A) := by
      unfold modelWarnings
      rw [hS]
      simp only [Option.bind_eq_bind, Option.bind_some, hA, Option.pure_def]
    rw [hv]
    congr 1
    refine C87_silent_partial (setup_example (some m) (some (.clay axialExample))) w
      (table := Model.stableRows Creation.tube) ⟨Py.sortedBy_perm _ _, Py.sortedBy_pairwise _ _⟩ good_lateral.1 ?_ hv
    intro l hl m' hm' s hs
    simp only [List.mem_singleton] at hl hs
    subst hl hs
    cases hm'
    norm_num
    exact h2
  constructor
  · exact key _ (Creation.sound_pisa k) ⟨⟨by norm_num, by norm_num⟩, ⟨_, _, .scalar _, by norm_num, by norm_num⟩,
      ⟨_, _, .pair _ _, by norm_num, by norm_num⟩, zero_le_one, zero_le_one, zero_le_one, zero_le_one⟩
  · exact key _ Creation.sound_dunkirk
      ⟨⟨by norm_num, by norm_num⟩, ⟨_, _, .scalar _, by norm_num, by norm_num, by norm_num, by norm_num⟩,
      ⟨_, _, .pair _ _, by norm_num, by norm_num⟩, zero_le_one, zero_le_one, zero_le_one, zero_le_one⟩

end OpenPile.Props.Warnings

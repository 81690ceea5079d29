/-
C31: API clay, Matlock and modified Matlock p-y curves.
-/
import Verif.Lemmas.Clay
import Verif.Spec.Conic

namespace OpenPile.Lateral
open OpenPile.Conic (Rising)

/-- Sensible soil and pile data. -/
structure ClayData (sig X Su eps50 D J : ℝ) : Prop where
  sig : 0 ≤ sig
  X : 0 ≤ X
  Su : 0 ≤ Su
  eps : 0 < eps50
  D : 0 < D
  J : 0 < J

/-- Enough values of `random()`. -/
structure Draws (n : ℕ) (draws : List ℝ) : Prop where
  enough : n ≤ draws.length
  range : ∀ r ∈ draws, 0 ≤ r ∧ r < 1

/-- Largest resistance allowed. -/
noncomputable def capOf (kind : Loading) (c Pu : ℝ) : ℝ := if kind = .static then Pu else c * Pu

/-- Law of one point. -/
def Law (kind : Loading) (Pu y50 c a r : ℝ) (deep : Prop) (q : ℝ × ℝ) : Prop :=
  (kind = .static → StaticLaw Pu y50 q) ∧ (kind = .cyclic → CyclicLaw Pu y50 c a r deep q)

theorem transition_spec {sig X Su D J Xr : ℝ} (hs : 0 ≤ sig) (hX : 0 ≤ X) (hSu : 0 ≤ Su)
    (hD : 0 < D) (hJ : 0 < J) (h : transition sig X Su D J = some Xr) :
    Transition sig X Su D J Xr := by
  unfold transition at h
  by_cases h1 : X = 0 ∨ Su = 0
  · rw [if_pos h1] at h
    simp only [Option.some.injEq] at h
    subst h
    refine ⟨le_rfl, Or.inl rfl, ?_, fun hpos => ?_⟩
    · rcases h1 with rfl | h1
      · left
        have : 0 ≤ (sig * D + J * Su * 0) * (5 / 2 * D) := by positivity
        linarith
      · exact Or.inr h1
    · rcases h1 with rfl | h1
      · constructor
        · intro h; linarith
        · rintro ⟨h, _⟩; exact h
      · linarith
  · rw [if_neg h1] at h
    push Not at h1
    have hXp : 0 < X := lt_of_le_of_ne hX (Ne.symm h1.1)
    have hSp : 0 < Su := lt_of_le_of_ne hSu (Ne.symm h1.2)
    have hd : 0 < sig / X * D / Su + J := by positivity
    rw [if_neg hd.ne'] at h
    simp only [Option.some.injEq] at h
    have hden : 0 < sig * D + J * Su * X := by positivity
    have e : 6 * D / (sig / X * D / Su + J) = 6 * Su * D * X / (sig * D + J * Su * X) := by
      rw [div_eq_div_iff hd.ne' hden.ne']
      field_simp
    rw [e] at h
    have hle : 6 * Su * D * X / (sig * D + J * Su * X) ≤ Xr := h ▸ le_max_left _ _
    refine ⟨h ▸ le_max_right _ _, ?_, Or.inl ?_, fun _ => ?_⟩
    · rcases max_choice (6 * Su * D * X / (sig * D + J * Su * X)) (5 / 2 * D) with hm | hm
      · right; rw [← h, hm]; field_simp
      · left; rw [← h, hm]
    · rw [div_le_iff₀ hden] at hle; linarith
    · rw [← h, max_lt_iff, div_lt_iff₀ hden, and_comm]
      unfold clayDeep clayWedge
      have : 6 * Su * D * X < X * (sig * D + J * Su * X) ↔ 6 * Su * D < sig * D + J * Su * X := by
        constructor
        · intro h; by_contra hc; push Not at hc; nlinarith
        · intro h; nlinarith
      rw [this]
      constructor
      · rintro ⟨a, b⟩; exact ⟨a, by linarith⟩
      · rintro ⟨a, b⟩; exact ⟨a, by linarith⟩

/-- Resistance law of `api_clay` and `matlock_1970`. -/
theorem matlockP_law {kind : Loading} {Pu X Xr q y : ℝ} (hPu : 0 ≤ Pu) (hX : 0 ≤ X) (hXr : 0 < Xr)
    (hq : 0 < q) (hy : 0 ≤ y) :
    ∃ p, matlockP kind Pu X Xr q y = some p ∧ 0 ≤ p ∧ p ≤ capOf kind (7185 / 10000) Pu ∧
      Law kind Pu q (7185 / 10000) 3 (X / Xr) (Xr < X) (y, p) := by
  have h8 := fun h : y ≤ 8 * q => cubic_bound hPu hq hy h eight_le
  have h3 := fun h : y ≤ 3 * q => cubic_bound hPu hq hy h three_le
  cases kind
  · simp only [matlockP, capOf, ↓reduceIte]
    by_cases h : y > 8 * q
    · rw [if_pos h]
      exact ⟨Pu, rfl, hPu, le_rfl, fun _ => ⟨fun h' => absurd h (not_lt.2 h'), fun _ => rfl⟩,
        fun h => absurd h (by simp)⟩
    · rw [if_neg h, cubic_some hq hy]
      have h' := not_lt.1 h
      obtain ⟨a, b⟩ := h8 h'
      exact ⟨_, rfl, a, by linarith, fun _ => ⟨fun _ => rfl, fun h'' => absurd h'' h⟩,
        fun h => absurd h (by simp)⟩
  · have hcap : capOf .cyclic (7185 / 10000) Pu = 7185 / 10000 * Pu := by simp [capOf]
    simp only [matlockP]
    rw [hcap]
    have cub : y ≤ 3 * q → ∀ r deep, ∃ p, cubic Pu q y = some p ∧ 0 ≤ p ∧ p ≤ 7185 / 10000 * Pu ∧
        Law .cyclic Pu q (7185 / 10000) 3 r deep (y, p) := by
      intro h' r deep
      obtain ⟨a, b⟩ := h3 h'
      rw [cubic_some hq hy]
      refine ⟨_, rfl, a, by linarith, fun h => absurd h (by simp), fun _ =>
        ⟨fun _ => rfl, fun _ h => ?_, fun _ h => ?_, fun _ h => ?_⟩⟩
      · exact absurd h (not_lt.2 h')
      · exact absurd h (not_lt.2 h')
      · exact absurd h (not_lt.2 (by simp only; linarith))
    by_cases hd : X ≤ Xr
    · rw [if_pos hd]
      have hr0 : 0 ≤ X / Xr := by positivity
      have hr1 : X / Xr ≤ 1 := (div_le_one hXr).2 hd
      by_cases h15 : y > 15 * q
      · rw [if_pos h15, if_neg hXr.ne']
        refine ⟨_, rfl, by positivity, ?_, fun h => absurd h (by simp), fun _ =>
          ⟨fun h => ?_, fun h => absurd hd (not_le.2 h), fun _ _ h => ?_, fun _ _ => ?_⟩⟩
        · rw [mul_div_assoc]; nlinarith [mul_nonneg hPu hr0]
        · exact absurd h (not_le.2 (by simp only; linarith))
        · exact absurd h (not_le.2 h15)
        · simp only; ring
      · rw [if_neg h15]
        push Not at h15
        by_cases hy3 : y > 3 * q
        · rw [if_pos hy3, if_neg (by rintro (h | h) <;> linarith)]
          have ht0 : 0 ≤ (y - 3 * q) / (12 * q) := div_nonneg (by linarith) (by linarith)
          have ht1 : (y - 3 * q) / (12 * q) ≤ 1 := by
            rw [div_le_one (by linarith)]; linarith
          have hm0 : 0 ≤ (1 - X / Xr) * ((y - 3 * q) / (12 * q)) :=
            mul_nonneg (by linarith) ht0
          have hm1 : (1 - X / Xr) * ((y - 3 * q) / (12 * q)) ≤ 1 := by nlinarith
          rw [mul_div_assoc]
          refine ⟨_, rfl, ?_, ?_, fun h => absurd h (by simp), fun _ =>
            ⟨fun h => ?_, fun h => absurd hd (not_le.2 h), fun _ _ _ => ?_, fun _ h => ?_⟩⟩
          · exact mul_nonneg (by positivity) (by linarith)
          · nlinarith [mul_nonneg hPu hm0]
          · exact absurd h (not_le.2 hy3)
          · have e12 : (15 - 3 : ℝ) = 12 := by norm_num
            simp only [e12]
            ring
          · exact absurd h (not_lt.2 h15)
        · rw [if_neg hy3]
          exact cub (not_lt.1 hy3) _ _
    · rw [if_neg hd]
      by_cases hy3 : y > 3 * q
      · rw [if_pos hy3]
        refine ⟨_, rfl, by positivity, le_rfl, fun h => absurd h (by simp), fun _ =>
          ⟨fun h => ?_, fun _ _ => rfl, fun h => ?_, fun h => ?_⟩⟩
        · exact absurd h (not_le.2 hy3)
        · exact absurd (not_le.1 hd) h
        · exact absurd (not_le.1 hd) h
      · rw [if_neg hy3]
        exact cub (not_lt.1 hy3) _ _

theorem one_rpow33 : (1 : ℝ) ^ (33 / 100 : ℝ) ≤ 1 := by rw [Real.one_rpow]

/-- Resistance law of `modified_Matlock`. -/
theorem modMatlockP_law {kind : Loading} {Pu X Xr q y : ℝ} (hPu : 0 ≤ Pu) (hX : 0 ≤ X)
    (hXr : 0 < Xr) (hq : 0 < q) (hy : 0 ≤ y) :
    ∃ p, modMatlockP kind Pu X Xr q y = some p ∧ 0 ≤ p ∧ p ≤ capOf kind (1 / 2) Pu ∧
      Law kind Pu q (1 / 2) 1 (X / Xr) (Xr < X) (y, p) := by
  have h8 := fun h : y ≤ 8 * q => cubic_bound hPu hq hy h eight_le
  have h3 := fun h : y ≤ 1 * q => cubic_bound hPu hq hy h one_rpow33
  cases kind
  · simp only [modMatlockP, capOf, ↓reduceIte]
    by_cases h : y > 8 * q
    · rw [if_pos h]
      exact ⟨Pu, rfl, hPu, le_rfl, fun _ => ⟨fun h' => absurd h (not_lt.2 h'), fun _ => rfl⟩,
        fun h => absurd h (by simp)⟩
    · rw [if_neg h, cubic_some hq hy]
      have h' := not_lt.1 h
      obtain ⟨a, b⟩ := h8 h'
      exact ⟨_, rfl, a, by linarith, fun _ => ⟨fun _ => rfl, fun h'' => absurd h'' h⟩,
        fun h => absurd h (by simp)⟩
  · have hcap : capOf .cyclic (1 / 2) Pu = 1 / 2 * Pu := by simp [capOf]
    simp only [modMatlockP]
    rw [hcap]
    have cub : y ≤ 1 * q → ∀ r deep, ∃ p, cubic Pu q y = some p ∧ 0 ≤ p ∧ p ≤ 1 / 2 * Pu ∧
        Law .cyclic Pu q (1 / 2) 1 r deep (y, p) := by
      intro h' r deep
      obtain ⟨a, b⟩ := h3 h'
      rw [cubic_some hq hy]
      refine ⟨_, rfl, a, by linarith, fun h => absurd h (by simp), fun _ =>
        ⟨fun _ => rfl, fun _ h => ?_, fun _ h => ?_, fun _ h => ?_⟩⟩
      · exact absurd h (not_lt.2 h')
      · exact absurd h (not_lt.2 h')
      · exact absurd h (not_lt.2 (by simp only; linarith))
    by_cases hd : X ≤ Xr
    · rw [if_pos hd]
      have hr0 : 0 ≤ X / Xr := by positivity
      have hr1 : X / Xr ≤ 1 := (div_le_one hXr).2 hd
      by_cases h15 : y > 15 * q
      · rw [if_pos h15, if_neg hXr.ne']
        refine ⟨_, rfl, by positivity, ?_, fun h => absurd h (by simp), fun _ =>
          ⟨fun h => ?_, fun h => absurd hd (not_le.2 h), fun _ _ h => ?_, fun _ _ => ?_⟩⟩
        · rw [mul_div_assoc]; nlinarith [mul_nonneg hPu hr0]
        · exact absurd h (not_le.2 (by simp only; linarith))
        · exact absurd h (not_le.2 h15)
        · simp only; ring
      · rw [if_neg h15]
        push Not at h15
        by_cases hy3 : y > 1 * q
        · rw [if_pos hy3, if_neg (by rintro (h | h) <;> linarith)]
          have ht0 : 0 ≤ (y - 1 * q) / (14 * q) := div_nonneg (by linarith) (by linarith)
          have ht1 : (y - 1 * q) / (14 * q) ≤ 1 := by
            rw [div_le_one (by linarith)]; linarith
          have hm0 : 0 ≤ (1 - X / Xr) * ((y - 1 * q) / (14 * q)) :=
            mul_nonneg (by linarith) ht0
          have hm1 : (1 - X / Xr) * ((y - 1 * q) / (14 * q)) ≤ 1 := by nlinarith
          rw [mul_div_assoc]
          refine ⟨_, rfl, ?_, ?_, fun h => absurd h (by simp), fun _ =>
            ⟨fun h => ?_, fun h => absurd hd (not_le.2 h), fun _ _ _ => ?_, fun _ h => ?_⟩⟩
          · exact mul_nonneg (by positivity) (by linarith)
          · nlinarith [mul_nonneg hPu hm0]
          · exact absurd h (not_le.2 hy3)
          · have e12 : (15 - 1 : ℝ) = 14 := by norm_num
            simp only [e12]
            ring
          · exact absurd h (not_lt.2 h15)
        · rw [if_neg hy3]
          exact cub (not_lt.1 hy3) _ _
    · rw [if_neg hd]
      by_cases hy3 : y > 1 * q
      · rw [if_pos hy3]
        refine ⟨_, rfl, by positivity, le_rfl, fun h => absurd h (by simp), fun _ =>
          ⟨fun h => ?_, fun _ _ => rfl, fun h => ?_, fun h => ?_⟩⟩
        · exact absurd h (not_le.2 hy3)
        · exact absurd (not_le.1 hd) h
        · exact absurd (not_le.1 hd) h
      · rw [if_neg hy3]
        exact cub (not_lt.1 hy3) _ _

/-- A table obeying the static law never decreases. -/
theorem static_rising {Pu q : ℝ} {l : List (ℝ × ℝ)} (hPu : 0 ≤ Pu) (hq : 0 < q)
    (hs : l.Pairwise (fun a b => a.1 ≤ b.1)) (h0 : ∀ a ∈ l, 0 ≤ a.1)
    (hl : ∀ a ∈ l, StaticLaw Pu q a) : Rising l := by
  unfold Rising
  refine hs.imp_of_mem ?_
  intro a b ha hb hab
  refine ⟨hab, ?_⟩
  have la := hl a ha
  have lb := hl b hb
  by_cases h8 : b.1 ≤ 8 * q
  · rw [la.rise (hab.trans h8), lb.rise h8]
    have := rpow33_mono (div_nonneg (h0 a ha) hq.le) (div_le_div_of_nonneg_right hab hq.le)
    have := mul_le_mul_of_nonneg_left this hPu
    linarith
  · rw [lb.plateau (not_le.1 h8)]
    by_cases h8' : a.1 ≤ 8 * q
    · rw [la.rise h8']
      have := (cubic_bound hPu hq (h0 a ha) h8' eight_le).2
      linarith
    · rw [la.plateau (not_le.1 h8')]

/-- What the three curves have in common. -/
structure ClayCurve (kind : Loading) (len : ℕ) (sig X Su eps50 D J c a : ℝ) (l : List (ℝ × ℝ)) :
    Prop where
  table : Table len (capOf kind c (clayUltimate sig X Su D J)) l
  rising : kind = .static → Rising l
  law : ∃ Xr, Transition sig X Su D J Xr ∧ ∀ q ∈ l,
    Law kind (clayUltimate sig X Su D J) (5 / 2 * eps50 * D) c a (X / Xr) (Xr < X) q

/-- The table of a p-y function with its displacement vector. -/
theorem clay_common {kind : Loading} {sig X Su eps50 D J c a ym : ℝ} {nodes : List ℝ} {N : ℕ}
    {add : ℝ → ℝ} {draws : List ℝ} {P : ℝ → Option ℝ} {Xr : ℝ} (hc : ClayData sig X Su eps50 D J)
    (hd : Draws N draws) (hn : nodes.length ≤ N) (h0 : (0 : ℝ) ∈ nodes) (hnn : ∀ y ∈ nodes, 0 ≤ y)
    (hym : 0 ≤ ym) (hr : ∀ r, 0 ≤ r → r < 1 → 0 ≤ add r) (ha : 0 < a)
    (hXr : transition sig X Su D J = some Xr)
    (hP : ∀ y, 0 ≤ y → ∃ p, P y = some p ∧ 0 ≤ p ∧ p ≤ capOf kind c (clayUltimate sig X Su D J) ∧
      Law kind (clayUltimate sig X Su D J) (5 / 2 * eps50 * D) c a (X / Xr) (Xr < X) (y, p)) :
    ∃ l, (yVector nodes ym N add draws).mapM (fun y => (P y).map (fun p => (y, p))) = some l ∧
      ClayCurve kind N sig X Su eps50 D J c a l ∧
      l.map Prod.fst = yVector nodes ym N add draws := by
  have hq : 0 < 5 / 2 * eps50 * D := by have := hc.eps; have := hc.D; positivity
  have hP0 : P 0 = some 0 := by
    obtain ⟨p, h, _, _, hl⟩ := hP 0 le_rfl
    rw [h]
    congr 1
    cases kind
    · have := (hl.1 rfl).rise (by simp only; positivity)
      simpa using this
    · have := (hl.2 rfl).rise (by simp only; positivity)
      simpa using this
  obtain ⟨l, h1, h2, h3, h4⟩ := table_of (ym := ym) hn hd.enough h0 hnn hym
    (fun r h => hr r (hd.range r h).1 (hd.range r h).2)
    (fun y hy => by obtain ⟨p, a, b, c, _⟩ := hP y hy; exact ⟨p, a, b, c⟩) hP0
  have hlaw : ∀ q ∈ l,
      Law kind (clayUltimate sig X Su D J) (5 / 2 * eps50 * D) c a (X / Xr) (Xr < X) q := by
    intro q hq
    obtain ⟨p, h, _, _, hl⟩ := hP q.1 (h2.nonneg q hq).1
    rw [h4 q hq] at h
    simp only [Option.some.injEq] at h
    rw [← h] at hl
    exact hl
  have hPu := clayUltimate_nonneg hc.sig hc.X hc.Su hc.D.le hc.J.le
  refine ⟨l, h1, ⟨h2, fun hk => ?_, ⟨Xr, transition_spec hc.sig hc.X hc.Su hc.D hc.J hXr, hlaw⟩⟩, h3⟩
  exact static_rising hPu hq h2.sorted (fun q hq => (h2.nonneg q hq).1)
    (fun q hq => (hlaw q hq).1 hk)

theorem y50_pos {sig X Su eps50 D J : ℝ} (hc : ClayData sig X Su eps50 D J) : 0 < y50 eps50 D := by
  unfold y50
  have := hc.eps; have := hc.D; positivity

theorem ymaxClay_nonneg {q ymax : ℝ} (hq : 0 < q) (hy : 0 ≤ ymax) : 0 ≤ ymaxClay q ymax := by
  unfold ymaxClay
  split_ifs
  · positivity
  · exact hy

/-- `api_clay` returns a table that starts at the origin, has the number of points asked for (at least
8) sorted in displacement, follows the static or cyclic law and stays within the ultimate resistance
(`0.7185` of it when cyclic); the static one never decreases. -/
theorem C31_api_clay {kind : Loading} {sig X Su eps50 D J ymax : ℝ} {len : ℕ} {draws : List ℝ}
    (hc : ClayData sig X Su eps50 D J) (hd : Draws (max 8 len) draws) (hy : 0 ≤ ymax) :
    ∃ l, apiClay sig X Su eps50 D J kind ymax len draws = some l ∧
      ClayCurve kind (max 8 len) sig X Su eps50 D J (7185 / 10000) 3 l := by
  obtain ⟨Xr, hXr, hXr'⟩ := transition_some hc.sig hc.X hc.Su hc.D hc.J
  have hq := y50_pos hc
  have hym := ymaxClay_nonneg hq hy
  have hXp : 0 < Xr := lt_of_lt_of_le (by have := hc.D; positivity) hXr'
  have hPu := clayUltimate_nonneg hc.sig hc.X hc.Su hc.D.le hc.J.le
  unfold apiClay
  rw [hXr]
  simp only [Option.bind_eq_bind, Option.bind_some, pmaxClay_eq]
  obtain ⟨l, h1, h2, _⟩ := clay_common (kind := kind) (c := 7185 / 10000) (a := 3)
    (nodes := [0, 1 / 10 * y50 eps50 D, 3 / 10 * y50 eps50 D, 1 * y50 eps50 D, 3 * y50 eps50 D,
      8 * y50 eps50 D, 15 * y50 eps50 D, ymaxClay (y50 eps50 D) ymax])
    (add := fun r => 15 * y50 eps50 D + r * (ymaxClay (y50 eps50 D) ymax - 15 * y50 eps50 D))
    hc hd (by simp) (by simp)
    (by simp only [List.mem_cons, List.not_mem_nil, or_false]
        rintro y (rfl | rfl | rfl | rfl | rfl | rfl | rfl | rfl) <;> positivity)
    hym (fun r h0 h1 => by nlinarith) (by norm_num) hXr
    (fun y hy => matlockP_law hPu hc.X hXp hq hy)
  exact ⟨l, h1, h2⟩

theorem matlock_add {q r : ℝ} (hq : 0 < q) (h0 : 0 ≤ r) :
    0 ≤ 1 / 100 * q + r * (8 - 1 / 100) * q := by
  have : 0 ≤ r * (8 - 1 / 100) * q := by
    refine mul_nonneg (mul_nonneg h0 (by norm_num)) hq.le
  linarith

/-- `matlock_1970`: same as `C31_api_clay` with at least 9 points. -/
theorem C31_matlock {kind : Loading} {sig X Su eps50 D J ymax : ℝ} {len : ℕ} {draws : List ℝ}
    (hc : ClayData sig X Su eps50 D J) (hd : Draws (max 9 len) draws) (hy : 0 ≤ ymax) :
    ∃ l, matlock sig X Su eps50 D J kind ymax len draws = some l ∧
      ClayCurve kind (max 9 len) sig X Su eps50 D J (7185 / 10000) 3 l := by
  obtain ⟨Xr, hXr, hXr'⟩ := transition_some hc.sig hc.X hc.Su hc.D hc.J
  have hq := y50_pos hc
  have hym := ymaxClay_nonneg hq hy
  have hXp : 0 < Xr := lt_of_lt_of_le (by have := hc.D; positivity) hXr'
  have hPu := clayUltimate_nonneg hc.sig hc.X hc.Su hc.D.le hc.J.le
  unfold matlock
  rw [hXr]
  simp only [Option.bind_eq_bind, Option.bind_some, pmaxClay_eq]
  obtain ⟨l, h1, h2, _⟩ := clay_common (kind := kind) (c := 7185 / 10000) (a := 3)
    (nodes := [0, 1 / 1000 * y50 eps50 D, 1 / 100 * y50 eps50 D, 1 / 10 * y50 eps50 D,
      1 * y50 eps50 D, 3 * y50 eps50 D, 8 * y50 eps50 D, 15 * y50 eps50 D,
      ymaxClay (y50 eps50 D) ymax])
    (add := fun r => 1 / 100 * y50 eps50 D + r * (8 - 1 / 100) * y50 eps50 D)
    hc hd (by simp) (by simp)
    (by simp only [List.mem_cons, List.not_mem_nil, or_false]
        rintro y (rfl | rfl | rfl | rfl | rfl | rfl | rfl | rfl | rfl) <;> positivity)
    hym (fun r h0 h1 => matlock_add hq h0) (by norm_num) hXr
    (fun y hy => matlockP_law hPu hc.X hXp hq hy)
  exact ⟨l, h1, h2⟩

/-- `modified_Matlock`: same with cyclic resistance at most half the ultimate one. -/
theorem C31_modified_matlock {kind : Loading} {sig X Su eps50 D J ymax : ℝ} {len : ℕ}
    {draws : List ℝ} (hc : ClayData sig X Su eps50 D J) (hd : Draws (max 8 len) draws)
    (hy : 0 ≤ ymax) :
    ∃ l, modMatlock sig X Su eps50 D J kind ymax len draws = some l ∧
      ClayCurve kind (max 8 len) sig X Su eps50 D J (1 / 2) 1 l := by
  obtain ⟨Xr, hXr, hXr'⟩ := transition_some hc.sig hc.X hc.Su hc.D hc.J
  have hq := y50_pos hc
  have hym := ymaxClay_nonneg hq hy
  have hXp : 0 < Xr := lt_of_lt_of_le (by have := hc.D; positivity) hXr'
  have hPu := clayUltimate_nonneg hc.sig hc.X hc.Su hc.D.le hc.J.le
  unfold modMatlock
  rw [hXr]
  simp only [Option.bind_eq_bind, Option.bind_some, pmaxClay_eq]
  obtain ⟨l, h1, h2, _⟩ := clay_common (kind := kind) (c := 1 / 2) (a := 1)
    (nodes := [0, 1 / 100 * y50 eps50 D, 1 / 10 * y50 eps50 D, 1 * y50 eps50 D, 3 * y50 eps50 D,
      8 * y50 eps50 D, 15 * y50 eps50 D, ymaxClay (y50 eps50 D) ymax])
    (add := fun r => 1 / 100 * y50 eps50 D + r * (8 - 1 / 100) * y50 eps50 D)
    hc hd (by simp) (by simp)
    (by simp only [List.mem_cons, List.not_mem_nil, or_false]
        rintro y (rfl | rfl | rfl | rfl | rfl | rfl | rfl | rfl) <;> positivity)
    hym (fun r h0 h1 => matlock_add hq h0) (by norm_num) hXr
    (fun y hy => modMatlockP_law hPu hc.X hXp hq hy)
  exact ⟨l, h1, h2⟩

example : ClayData 20 3 50 (1 / 100) 2 (1 / 2) ∧ Draws (max 8 10) (List.replicate 10 (1 / 3)) := by
  refine ⟨⟨?_, ?_, ?_, ?_, ?_, ?_⟩, ⟨by simp, ?_⟩⟩ <;> norm_num [List.mem_replicate]

/-! ### jumps of the laws -/

/-- The static law jumps at `8 y50` by at most 1 % of the ultimate resistance. -/
theorem C31_static_jump {Pu q : ℝ} {a : ℝ × ℝ} (hPu : 0 ≤ Pu) (hq : 0 < q) (h : StaticLaw Pu q a)
    (ha : a.1 = 8 * q) : 99 / 100 * Pu ≤ a.2 ∧ a.2 ≤ Pu := by
  have e : a.1 / q = 8 := by rw [ha]; field_simp
  rw [h.rise ha.le, e]
  have h1 := eight_ge
  have h2 := eight_le
  constructor <;> nlinarith

/-- The cyclic law of API jumps at `3 y50` by at most 0.1 % of the ultimate resistance. -/
theorem C31_cyclic_jump {Pu q r : ℝ} {deep : Prop} {a : ℝ × ℝ} (hPu : 0 ≤ Pu) (hq : 0 < q)
    (h : CyclicLaw Pu q (7185 / 10000) 3 r deep a) (ha : a.1 = 3 * q) :
    718 / 1000 * Pu ≤ a.2 ∧ a.2 ≤ 7185 / 10000 * Pu := by
  have e : a.1 / q = 3 := by rw [ha]; field_simp
  rw [h.rise ha.le, e]
  have h1 := three_ge
  have h2 := three_le
  constructor <;> nlinarith

/-- The modified cyclic law has no jump at `y50`. -/
theorem C31_modified_jump {Pu q r : ℝ} {deep : Prop} {a : ℝ × ℝ} (hq : 0 < q)
    (h : CyclicLaw Pu q (1 / 2) 1 r deep a) (ha : a.1 = q) : a.2 = 1 / 2 * Pu := by
  have e : a.1 / q = 1 := by rw [ha]; field_simp
  rw [h.rise (by linarith), e, Real.one_rpow]
  ring

/-! ### the largest displacement -/

theorem fst_of_mapM {P : ℝ → Option ℝ} {ys : List ℝ} {l : List (ℝ × ℝ)}
    (h : ys.mapM (fun y => (P y).map (fun p => (y, p))) = some l) : l.map Prod.fst = ys := by
  have hf := Conic.mapM_forall₂ h
  have : List.Forall₂ (fun y (q : ℝ × ℝ) => y = q.1) ys l := by
    refine hf.imp fun y q h => ?_
    simp only [Option.map_eq_some_iff] at h
    obtain ⟨p, _, rfl⟩ := h
    rfl
  have h2 := List.forall₂_map_right_iff (R := fun a b : ℝ => a = b) (f := Prod.fst)
    (l := ys) (u := l)
  exact (List.forall₂_eq_eq_eq ▸ h2.2 this : _ = _).symm

/-- The displacements of `api_clay`. -/
theorem apiClay_ys {kind : Loading} {sig X Su eps50 D J ymax : ℝ} {len : ℕ} {draws : List ℝ}
    {l : List (ℝ × ℝ)} (h : apiClay sig X Su eps50 D J kind ymax len draws = some l) :
    l.map Prod.fst = yVector [0, 1 / 10 * y50 eps50 D, 3 / 10 * y50 eps50 D, 1 * y50 eps50 D,
      3 * y50 eps50 D, 8 * y50 eps50 D, 15 * y50 eps50 D, ymaxClay (y50 eps50 D) ymax]
      (ymaxClay (y50 eps50 D) ymax) (max 8 len)
      (fun r => 15 * y50 eps50 D + r * (ymaxClay (y50 eps50 D) ymax - 15 * y50 eps50 D)) draws := by
  unfold apiClay at h
  cases hX : transition sig X Su D J with
  | none => rw [hX] at h; exact absurd h (by simp)
  | some Xr =>
    rw [hX] at h
    simp only [Option.bind_eq_bind, Option.bind_some] at h
    exact fst_of_mapM h

theorem matlock_ys {kind : Loading} {sig X Su eps50 D J ymax : ℝ} {len : ℕ} {draws : List ℝ}
    {l : List (ℝ × ℝ)} (h : matlock sig X Su eps50 D J kind ymax len draws = some l) :
    l.map Prod.fst = yVector [0, 1 / 1000 * y50 eps50 D, 1 / 100 * y50 eps50 D,
      1 / 10 * y50 eps50 D, 1 * y50 eps50 D, 3 * y50 eps50 D, 8 * y50 eps50 D, 15 * y50 eps50 D,
      ymaxClay (y50 eps50 D) ymax] (ymaxClay (y50 eps50 D) ymax) (max 9 len)
      (fun r => 1 / 100 * y50 eps50 D + r * (8 - 1 / 100) * y50 eps50 D) draws := by
  unfold matlock at h
  cases hX : transition sig X Su D J with
  | none => rw [hX] at h; exact absurd h (by simp)
  | some Xr =>
    rw [hX] at h
    simp only [Option.bind_eq_bind, Option.bind_some] at h
    exact fst_of_mapM h

theorem modMatlock_ys {kind : Loading} {sig X Su eps50 D J ymax : ℝ} {len : ℕ} {draws : List ℝ}
    {l : List (ℝ × ℝ)} (h : modMatlock sig X Su eps50 D J kind ymax len draws = some l) :
    l.map Prod.fst = yVector [0, 1 / 100 * y50 eps50 D,
      1 / 10 * y50 eps50 D, 1 * y50 eps50 D, 3 * y50 eps50 D, 8 * y50 eps50 D, 15 * y50 eps50 D,
      ymaxClay (y50 eps50 D) ymax] (ymaxClay (y50 eps50 D) ymax) (max 8 len)
      (fun r => 1 / 100 * y50 eps50 D + r * (8 - 1 / 100) * y50 eps50 D) draws := by
  unfold modMatlock at h
  cases hX : transition sig X Su D J with
  | none => rw [hX] at h; exact absurd h (by simp)
  | some Xr =>
    rw [hX] at h
    simp only [Option.bind_eq_bind, Option.bind_some] at h
    exact fst_of_mapM h

theorem fst_mem_iff {l : List (ℝ × ℝ)} {ys : List ℝ} (h : l.map Prod.fst = ys) {y : ℝ} :
    y ∈ ys ↔ ∃ q ∈ l, q.1 = y := by
  rw [← h, List.mem_map]

theorem kept_lt {pre : List ℝ} {a b ym : ℝ} (h : ym < a) :
    ((pre ++ [a, b]).filter (fun y => decide (y ≤ ym))).length < pre.length + 2 := by
  rw [List.filter_append, List.filter_cons, if_neg (by simp [h]), List.length_append]
  have a := List.length_filter_le (fun y => decide (y ≤ ym)) pre
  have b := List.length_filter_le (fun y => decide (y ≤ ym)) [b]
  simp only [List.length_cons, List.length_nil] at b
  omega

/-- The displacement range asked for: `16 y50` unless given. -/
noncomputable def range (eps50 D ymax : ℝ) : ℝ :=
  if ymax = 0 then 16 * (5 / 2 * eps50 * D) else ymax

/-- `api_clay` reaches `ymax` and does not go beyond it, provided `ymax` is left to its default or is at
least `15 y50`. -/
theorem C31_api_clay_ymax_partial {kind : Loading} {sig X Su eps50 D J ymax : ℝ} {len : ℕ}
    {draws : List ℝ} {l : List (ℝ × ℝ)} (hc : ClayData sig X Su eps50 D J)
    (hd : Draws (max 8 len) draws) (hy : ymax = 0 ∨ 15 * (5 / 2 * eps50 * D) ≤ ymax)
    (h : apiClay sig X Su eps50 D J kind ymax len draws = some l) :
    (∀ q ∈ l, q.1 ≤ range eps50 D ymax) ∧ ∃ q ∈ l, q.1 = range eps50 D ymax := by
  have hq := y50_pos hc
  have e : ymaxClay (y50 eps50 D) ymax = range eps50 D ymax := rfl
  have hle : 15 * y50 eps50 D ≤ range eps50 D ymax := by
    have hq' : 0 < 5 / 2 * eps50 * D := hq
    rcases hy with rfl | hy
    · simp only [range, ↓reduceIte, y50]; linarith
    · have hne : ymax ≠ 0 := by intro h0; rw [h0] at hy; linarith
      simp only [range, hne, ↓reduceIte, y50]; exact hy
  have hys := apiClay_ys h
  rw [e] at hys
  constructor
  · intro q hql
    have hm : q.1 ∈ _ := (fst_mem_iff hys).2 ⟨q, hql, rfl⟩
    rcases mem_yVector.1 hm with h | ⟨r, hr, h⟩
    · exact h.2
    · obtain ⟨r0, r1⟩ := hd.range r (List.mem_of_mem_take hr)
      rw [← h]
      nlinarith
  · rw [← fst_mem_iff hys, mem_yVector]
    exact Or.inl ⟨by simp, le_rfl⟩

/-- With a user `ymax` below `15 y50` at least one point is always put beyond it. -/
theorem C31_violated_ymax {kind : Loading} {sig X Su eps50 D J ymax : ℝ} {len : ℕ}
    {draws : List ℝ} {l : List (ℝ × ℝ)} (hc : ClayData sig X Su eps50 D J)
    (hd : Draws (max 8 len) draws) (hy : 0 < ymax) (hy15 : ymax < 15 * (5 / 2 * eps50 * D))
    (h : apiClay sig X Su eps50 D J kind ymax len draws = some l) : ∃ q ∈ l, ymax < q.1 := by
  have hq := y50_pos hc
  have e : ymaxClay (y50 eps50 D) ymax = ymax := by simp [ymaxClay, hy.ne']
  have hys := apiClay_ys h
  rw [e] at hys
  have h15 : ymax < 15 * y50 eps50 D := hy15
  have hkept : ([0, 1 / 10 * y50 eps50 D, 3 / 10 * y50 eps50 D, 1 * y50 eps50 D,
      3 * y50 eps50 D, 8 * y50 eps50 D, 15 * y50 eps50 D, ymax].filter
      (fun y => decide (y ≤ ymax))).length ≤ 7 := by
    have := kept_lt (pre := [0, 1 / 10 * y50 eps50 D, 3 / 10 * y50 eps50 D, 1 * y50 eps50 D,
      3 * y50 eps50 D, 8 * y50 eps50 D]) (b := ymax) h15
    simp only [List.length_cons, List.length_nil] at this
    exact Nat.lt_succ_iff.1 this
  have hen := hd.enough
  obtain ⟨r, ds, rfl⟩ : ∃ r ds, draws = r :: ds := by
    cases draws with
    | nil => simp at hen
    | cons r ds => exact ⟨r, ds, rfl⟩
  have hr := hd.range r (by simp)
  have hm : (15 * y50 eps50 D + r * (ymax - 15 * y50 eps50 D)) ∈ l.map Prod.fst := by
    rw [hys, mem_yVector]
    refine Or.inr ⟨r, ?_, rfl⟩
    obtain ⟨m, hm⟩ : ∃ m, max 8 len - ([0, 1 / 10 * y50 eps50 D, 3 / 10 * y50 eps50 D,
      1 * y50 eps50 D, 3 * y50 eps50 D, 8 * y50 eps50 D, 15 * y50 eps50 D, ymax].filter
      (fun y => decide (y ≤ ymax))).length = m + 1 := ⟨_, (Nat.sub_add_cancel (by omega)).symm⟩
    rw [hm]
    simp
  obtain ⟨q, hql, hqe⟩ := List.mem_map.1 hm
  exact ⟨q, hql, by rw [hqe]; nlinarith⟩

example : ∃ l, apiClay 20 3 50 (1 / 100) 2 (1 / 2) .static (1 / 100) 8
    (List.replicate 8 (1 / 2)) = some l ∧ ∃ q ∈ l, (1 / 100 : ℝ) < q.1 := by
  have hc : ClayData 20 3 50 (1 / 100) 2 (1 / 2) := ⟨by norm_num, by norm_num, by norm_num,
    by norm_num, by norm_num, by norm_num⟩
  have hd : Draws (max 8 8) (List.replicate 8 (1 / 2)) :=
    ⟨by simp, by norm_num [List.mem_replicate]⟩
  obtain ⟨l, h, _⟩ := C31_api_clay (kind := .static) (ymax := 1 / 100) hc hd (by norm_num)
  exact ⟨l, h, C31_violated_ymax hc hd (by norm_num) (by norm_num) h⟩

/-- `matlock_1970` and `modified_Matlock` stay within `ymax` when it is the default or at least
`8 y50`. -/
theorem C31_matlock_ymax_partial {kind : Loading} {sig X Su eps50 D J ymax : ℝ} {len : ℕ}
    {draws : List ℝ} {l : List (ℝ × ℝ)} (hc : ClayData sig X Su eps50 D J) {n : ℕ}
    (hd : Draws n draws) (hy : ymax = 0 ∨ 8 * (5 / 2 * eps50 * D) ≤ ymax)
    (h : matlock sig X Su eps50 D J kind ymax len draws = some l ∨
      modMatlock sig X Su eps50 D J kind ymax len draws = some l) :
    (∀ q ∈ l, q.1 ≤ range eps50 D ymax) ∧ ∃ q ∈ l, q.1 = range eps50 D ymax := by
  have hq := y50_pos hc
  have e : ymaxClay (y50 eps50 D) ymax = range eps50 D ymax := rfl
  have hle : 8 * y50 eps50 D ≤ range eps50 D ymax := by
    have hq' : 0 < 5 / 2 * eps50 * D := hq
    rcases hy with rfl | hy
    · simp only [range, ↓reduceIte, y50]; linarith
    · have hne : ymax ≠ 0 := by intro h0; rw [h0] at hy; linarith
      simp only [range, hne, ↓reduceIte, y50]; exact hy
  have main : ∀ nodes N, l.map Prod.fst = yVector nodes (range eps50 D ymax) N
      (fun r => 1 / 100 * y50 eps50 D + r * (8 - 1 / 100) * y50 eps50 D) draws →
      range eps50 D ymax ∈ nodes →
      (∀ q ∈ l, q.1 ≤ range eps50 D ymax) ∧ ∃ q ∈ l, q.1 = range eps50 D ymax := by
    intro nodes N hys hmem
    constructor
    · intro q hql
      have hm : q.1 ∈ _ := (fst_mem_iff hys).2 ⟨q, hql, rfl⟩
      rcases mem_yVector.1 hm with h | ⟨r, hr, h⟩
      · exact h.2
      · obtain ⟨r0, r1⟩ := hd.range r (List.mem_of_mem_take hr)
        rw [← h]
        have : r * y50 eps50 D ≤ y50 eps50 D := by nlinarith
        linarith
    · rw [← fst_mem_iff hys, mem_yVector]
      exact Or.inl ⟨hmem, le_rfl⟩
  rcases h with h | h
  · exact main _ _ (e ▸ matlock_ys h) (by simp)
  · exact main _ _ (e ▸ modMatlock_ys h) (by simp)

/-- With a smaller `ymax`, a draw above `ymax / (8 y50)` puts a point beyond it. -/
theorem C31_violated_ymax_matlock {kind : Loading} {sig X Su eps50 D J ymax r : ℝ} {len : ℕ}
    {draws : List ℝ} {l : List (ℝ × ℝ)} (hc : ClayData sig X Su eps50 D J)
    (hy : 0 < ymax) (hr : ymax < 8 * (5 / 2 * eps50 * D) * r) (hr1 : r < 1)
    (h : matlock sig X Su eps50 D J kind ymax len (r :: draws) = some l ∨
      modMatlock sig X Su eps50 D J kind ymax len (r :: draws) = some l) : ∃ q ∈ l, ymax < q.1 := by
  have hq := y50_pos hc
  have e : ymaxClay (y50 eps50 D) ymax = ymax := by simp [ymaxClay, hy.ne']
  have hr' : ymax < 8 * y50 eps50 D * r := hr
  have h15 : ymax < 15 * y50 eps50 D := by nlinarith
  have main : ∀ (pre : List ℝ) N, pre.length + 2 ≤ N → l.map Prod.fst =
      yVector (pre ++ [15 * y50 eps50 D, ymax]) ymax N
      (fun r => 1 / 100 * y50 eps50 D + r * (8 - 1 / 100) * y50 eps50 D) (r :: draws) →
      ∃ q ∈ l, ymax < q.1 := by
    intro pre N hN hys
    have hk : ((pre ++ [15 * y50 eps50 D, ymax]).filter (fun y => decide (y ≤ ymax))).length <
        N := by
      exact lt_of_lt_of_le (kept_lt h15) hN
    have hm : (1 / 100 * y50 eps50 D + r * (8 - 1 / 100) * y50 eps50 D) ∈ l.map Prod.fst := by
      rw [hys, mem_yVector]
      refine Or.inr ⟨r, ?_, rfl⟩
      obtain ⟨m, hm⟩ : ∃ m, N - ((pre ++ [15 * y50 eps50 D, ymax]).filter
        (fun y => decide (y ≤ ymax))).length = m + 1 := ⟨_, (Nat.sub_add_cancel (by omega)).symm⟩
      rw [hm]
      simp
    obtain ⟨q, hql, hqe⟩ := List.mem_map.1 hm
    exact ⟨q, hql, by rw [hqe]; nlinarith⟩
  rcases h with h | h
  · exact main [0, 1 / 1000 * y50 eps50 D, 1 / 100 * y50 eps50 D,
      1 / 10 * y50 eps50 D, 1 * y50 eps50 D, 3 * y50 eps50 D, 8 * y50 eps50 D] (max 9 len)
      (by simp) (e ▸ matlock_ys h)
  · exact main [0, 1 / 100 * y50 eps50 D,
      1 / 10 * y50 eps50 D, 1 * y50 eps50 D, 3 * y50 eps50 D, 8 * y50 eps50 D] (max 8 len)
      (by simp) (e ▸ modMatlock_ys h)

/-- Without stress and without the empirical factor `J` the transition depth is a division by zero,
below the ground line, for any strength. -/
theorem C31_violated_zero_J {X Su eps50 D ymax : ℝ} {kind : Loading} {len : ℕ} {draws : List ℝ}
    (hX : 0 < X) (hSu : 0 < Su) : apiClay 0 X Su eps50 D 0 kind ymax len draws = none := by
  unfold apiClay transition
  simp [hX.ne', hSu.ne']

end OpenPile.Lateral

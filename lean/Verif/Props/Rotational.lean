/-
Rotational springs of the API models (C63).
-/
import Verif.Spec.Rotational
import Verif.Props.Axial
import Verif.Props.Layer
import Verif.Props.Pisa
import Verif.Props.Assemble
import Verif.Props.Sand
import Verif.Props.Friction

namespace OpenPile.Props.Rotational

open OpenPile OpenPile.Params OpenPile.SoilModel OpenPile.Axial OpenPile.Spec.Rotational OpenPile.Spec.Spring OpenPile.Spring

theorem ringMoment_eq (D tau : ℝ) : ringMoment D tau = 1 / 4 * Real.pi * D ^ 2 * tau := by
  unfold ringMoment
  have : ∀ φ : ℝ, tau * Real.cos φ * (D / 2 * Real.cos φ) * (D / 2) = tau * D ^ 2 / 4 * Real.cos φ ^ 2 := by
    intro φ; ring
  simp only [this]
  rw [intervalIntegral.integral_const_mul, integral_cos_sq]
  simp
  ring

/-- The two filtered vectors are the columns of the filtered curve. -/
theorem filter_columns {c : List ℝ × List ℝ} (hl : c.1.length = c.2.length)
    (hsign : ∀ q ∈ c.1.zip c.2, 0 ≤ q.1 ↔ 0 ≤ q.2) :
    c.1.filter (fun v => decide (0 ≤ v)) = ((c.1.zip c.2).filter (fun q => decide (0 ≤ q.1))).map Prod.fst ∧
    c.2.filter (fun v => decide (0 ≤ v)) = ((c.1.zip c.2).filter (fun q => decide (0 ≤ q.1))).map Prod.snd := by
  constructor
  · have h : c.1 = (c.1.zip c.2).map Prod.fst := by rw [List.map_fst_zip (by omega)]
    conv_lhs => rw [h]
    rw [List.filter_map]
    rfl
  · have h : c.2 = (c.1.zip c.2).map Prod.snd := by rw [List.map_snd_zip (by omega)]
    conv_lhs => rw [h]
    rw [List.filter_map]
    congr 1
    apply List.filter_congr
    intro q hq
    simp only [Function.comp, decide_eq_decide]
    exact (hsign q hq).symm

/-- The points of a rotational spring before they are turned into rotations and moments: the points of the t-z
curve in compression, continued at constant friction. -/
noncomputable def branch (c : List ℝ × List ℝ) : List (ℝ × ℝ) := (c.1.zip c.2).filter (fun q => decide (0 ≤ q.1))

/-- The continuation. -/
noncomputable def continued (P : List (ℝ × ℝ)) (n : ℕ) (last : ℝ × ℝ) : List (ℝ × ℝ) :=
  P ++ (List.range n).map (fun i : ℕ => (last.1 + (i : ℝ) * (1 / 10), last.2))

theorem rotational_eq {c : List ℝ × List ℝ} {D : ℝ} {len : ℕ} {norms : List ℝ} (hl : c.1.length = c.2.length)
    (hsign : ∀ q ∈ c.1.zip c.2, 0 ≤ q.1 ↔ 0 ≤ q.2) (hD : D ≠ 0) {last : ℝ × ℝ}
    (hlast : (branch c).getLast? = some last) :
    rotational c D len norms = some (norms.map (fun w : ℝ =>
      (continued (branch c) (len - (branch c).length) last).map (fun q : ℝ × ℝ =>
        (Real.arctan (q.1 / (1 / 2 * D)), 1 / 4 * Real.pi * D ^ 2 * q.2 * w)))) := by
  obtain ⟨h1, h2⟩ := filter_columns hl hsign
  have e : (c.1.zip c.2).filter (fun q => decide (0 ≤ q.1)) = branch c := rfl
  rw [e] at h1 h2
  unfold rotational positive
  simp only [h1, h2, List.getLast?_map, hlast, Option.map_some, Option.bind_eq_bind, Option.bind_some, Option.pure_def,
    if_neg hD, Option.some.injEq, List.length_map]
  apply List.map_congr_left
  intro w _
  unfold continued
  generalize len - (branch c).length = n
  generalize branch c = P
  rw [List.zipWith_append (by simp), List.map_append, List.zipWith_map, List.zipWith_map, List.zipWith_self,
    List.zipWith_self, List.map_map]
  rfl

theorem onCurve_node {tab : List (ℝ × ℝ)} {q : ℝ × ℝ} (hq : q ∈ tab) (hs : tab.Pairwise (fun a b => a.1 < b.1)) :
    OnCurveBoth tab q.1 q.2 := by
  left
  obtain ⟨l₁, l₂, rfl⟩ := List.append_of_mem hq
  cases l₂ with
  | nil => exact Or.inr ⟨l₁, q.1, q.2, rfl, le_rfl, rfl⟩
  | cons r l₂ =>
    refine Or.inl ⟨l₁, l₂, q.1, q.2, r.1, r.2, rfl, le_rfl, ?_, by ring⟩
    rw [List.pairwise_append] at hs
    exact ((List.pairwise_cons.1 hs.2.1).1 r (by simp)).le

/-- Points of a curve in compression: starting at the origin, rising, on the polygon. -/
theorem moment_curve {P nodes : List (ℝ × ℝ)} {last : ℝ × ℝ} {D w : ℝ} (n : ℕ) (hD : 0 < D) (hw : 0 ≤ w)
    (h0 : P.head? = some (0, 0)) (hlast : P.getLast? = some last)
    (hmono : P.Pairwise (fun a b => a.1 ≤ b.1 ∧ a.2 ≤ b.2)) (hpos : ∀ q ∈ P, 0 ≤ q.1)
    (hon : ∀ q ∈ P, OnCurveBoth nodes q.1 q.2) (hend : ∀ x, last.1 ≤ x → OnCurveBoth nodes x last.2)
    (hcorner : ∀ q ∈ nodes, 0 ≤ q.1 → q ∈ P) :
    MomentCurve D w nodes ((continued P n last).map (fun q : ℝ × ℝ =>
        (Real.arctan (q.1 / (1 / 2 * D)), 1 / 4 * Real.pi * D ^ 2 * q.2 * w))) := by
  have hmem := List.mem_of_getLast? hlast
  have half : ∀ x : ℝ, x / (1 / 2 * D) = x / (D / 2) := by intro x; congr 1; ring
  have hpi := Real.pi_pos
  constructor
  · unfold continued
    rw [List.head?_map, List.head?_append, h0]
    simp
  · rw [List.pairwise_map]
    have key : (continued P n last).Pairwise (fun a b => a.1 ≤ b.1 ∧ a.2 ≤ b.2) := by
      unfold continued
      rw [List.pairwise_append]
      have hle : ∀ q ∈ P, q.1 ≤ last.1 ∧ q.2 ≤ last.2 := by
        intro q hq
        obtain ⟨l, rfl⟩ := List.getLast?_eq_some_iff.1 hlast
        rw [List.pairwise_append] at hmono
        rcases List.mem_append.1 hq with h | h
        · exact hmono.2.2 q h last (by simp)
        · rw [List.mem_singleton.1 h]; exact ⟨le_rfl, le_rfl⟩
      refine ⟨hmono, ?_, ?_⟩
      · rw [List.pairwise_map]
        refine List.pairwise_lt_range.imp ?_
        intro i j hij
        have : (i : ℝ) ≤ j := by exact_mod_cast hij.le
        constructor
        · simp only []; linarith
        · exact le_rfl
      · intro a ha b hb
        obtain ⟨i, -, rfl⟩ := List.mem_map.1 hb
        have := hle a ha
        have hi : (0 : ℝ) ≤ i := Nat.cast_nonneg i
        exact ⟨by simp only []; linarith, this.2⟩
    refine key.imp ?_
    rintro a b ⟨h1, h2⟩
    constructor
    · apply Real.arctan_strictMono.monotone
      exact div_le_div_of_nonneg_right h1 (by positivity)
    · apply mul_le_mul_of_nonneg_right _ hw
      exact mul_le_mul_of_nonneg_left h2 (by positivity)
  · intro q hq
    obtain ⟨p, hp, rfl⟩ := List.mem_map.1 hq
    refine ⟨p.1, p.2, ?_, ?_, ?_, ?_, ?_⟩
    · unfold continued at hp
      rcases List.mem_append.1 hp with h | h
      · exact hpos p h
      · obtain ⟨i, -, rfl⟩ := List.mem_map.1 h
        have := hpos _ hmem
        positivity
    · unfold continued at hp
      rcases List.mem_append.1 hp with h | h
      · exact hon p h
      · obtain ⟨i, -, rfl⟩ := List.mem_map.1 h
        apply hend
        have hi : (0 : ℝ) ≤ i := Nat.cast_nonneg i
        simp only []; linarith
    · rw [Real.tan_arctan, half]
    · exact abs_lt.2 ⟨Real.neg_pi_div_two_lt_arctan _, Real.arctan_lt_pi_div_two _⟩
    · rw [ringMoment_eq]
  · intro q hq hq0
    rw [ringMoment_eq, ← half]
    refine List.mem_map.2 ⟨q, ?_, rfl⟩
    unfold continued
    exact List.mem_append_left _ (hcorner q hq hq0)

/-- The compression branch of a scaled backbone. -/
theorem branch_scaled {c : List ℝ × List ℝ} {N len : ℕ} {nodes l : List (ℝ × ℝ)} {xl D sx f : ℝ} {norms : List ℝ}
    (hc : Curve N c) (hN : N ≤ len) (hD : 0 < D) (hsx : 0 < sx) (hf : 0 < f) (hl : nodes = l ++ [(xl, 1)])
    (hasc : nodes.Pairwise (fun a b => a.1 < b.1 ∧ a.2 ≤ b.2)) (hsign : ∀ q ∈ nodes, 0 ≤ q.1 ↔ 0 ≤ q.2)
    (hxl : 0 ≤ xl) (h00 : (0, 0) ∈ nodes) (hn : ∀ q ∈ nodes, q ∈ c.1.zip c.2)
    (hmem : ∀ q ∈ c.1.zip c.2, q ∈ nodes ∨ (q.1 < 0 ∧ q.2 < 0) ∨ (xl ≤ q.1 ∧ q.2 = 1)) :
    ∃ rows, rotational (scaleCurve sx f c) D len norms = some rows ∧
      List.Forall₂ (fun w r => r.length = len ∧ (0 ≤ w → MomentCurve D w (scaled sx f nodes) r)) norms rows := by
  have top : ∀ q ∈ nodes, q.1 ≤ xl ∧ q.2 ≤ 1 := by
    intro q hq
    rw [hl] at hq hasc
    rcases List.mem_append.1 hq with h | h
    · have := (List.pairwise_append.1 hasc).2.2 q h (xl, 1) (by simp)
      exact ⟨this.1.le, this.2⟩
    · rw [List.mem_singleton.1 h]; exact ⟨le_rfl, le_rfl⟩
  have rise : ∀ p ∈ nodes, ∀ q ∈ nodes, p.1 ≤ q.1 → p.2 ≤ q.2 := by
    intro p hp q hq h
    exact Axial.rise_of_chain hasc.isChain hp hq h
  have rise' : ∀ p ∈ c.1.zip c.2, ∀ q ∈ c.1.zip c.2, 0 ≤ p.1 → p.1 ≤ q.1 → p.2 ≤ q.2 := by
    intro p hp q hq h0 h
    rcases hmem p hp with a | a | a <;> rcases hmem q hq with b | b | b
    · exact rise p a q b h
    · linarith [b.1]
    · rw [b.2]; exact (top p a).2
    · linarith [a.1]
    · linarith [a.1]
    · linarith [a.1]
    · have := rise (xl, 1) (by rw [hl]; simp) q b (a.1.trans h)
      rw [a.2]; exact this
    · linarith [b.1, a.1]
    · rw [a.2, b.2]
  have sign' : ∀ p ∈ c.1.zip c.2, 0 ≤ p.1 ↔ 0 ≤ p.2 := by
    intro p hp
    rcases hmem p hp with a | a | a
    · exact hsign p a
    · constructor <;> intro h <;> linarith [a.1, a.2]
    · constructor <;> intro h
      · rw [a.2]; norm_num
      · linarith [a.1]
  have hz : (scaleCurve sx f c).1.zip (scaleCurve sx f c).2 = scaled sx f (c.1.zip c.2) := zip_scaleCurve sx f c
  have hlen : (scaleCurve sx f c).1.length = (scaleCurve sx f c).2.length := by
    simp [scaleCurve, hc.disp, hc.force]
  have hmem' : ∀ q, q ∈ branch (scaleCurve sx f c) ↔ ∃ p ∈ c.1.zip c.2, 0 ≤ p.1 ∧ q = (p.1 * sx, p.2 * f) := by
    intro q
    unfold branch
    rw [hz, List.mem_filter]
    unfold scaled
    rw [List.mem_map]
    constructor
    · rintro ⟨⟨p, hp, rfl⟩, h⟩
      exact ⟨p, hp, nonneg_of_mul_nonneg_left (by simpa using h) hsx, rfl⟩
    · rintro ⟨p, hp, h, rfl⟩
      exact ⟨⟨p, hp, rfl⟩, by simpa using mul_nonneg h hsx.le⟩
  have hbl : (branch (scaleCurve sx f c)).length ≤ len := by
    unfold branch
    refine (List.length_filter_le _ _).trans ?_
    rw [hz]
    simp only [scaled, List.length_map, List.length_zip, hc.disp, hc.force]
    omega
  have h0mem : ((0 : ℝ), (0 : ℝ)) ∈ branch (scaleCurve sx f c) := (hmem' _).2 ⟨(0, 0), hn _ h00, le_rfl, by simp⟩
  obtain ⟨last, hlast⟩ : ∃ last, (branch (scaleCurve sx f c)).getLast? = some last := by
    cases h : (branch (scaleCurve sx f c)).getLast? with
    | none => rw [List.getLast?_eq_none_iff.1 h] at h0mem; exact absurd h0mem (by simp)
    | some q => exact ⟨q, rfl⟩
  have hsort : (branch (scaleCurve sx f c)).Pairwise (fun a b => a.1 ≤ b.1) := by
    unfold branch
    apply List.Pairwise.filter
    rw [hz]
    unfold scaled
    rw [List.pairwise_map]
    have h1 : ((c.1.zip c.2).map Prod.fst).Pairwise (· ≤ ·) := by
      rw [List.map_fst_zip (by rw [hc.disp, hc.force])]
      exact hc.sorted
    rw [List.pairwise_map] at h1
    exact h1.imp fun h => mul_le_mul_of_nonneg_right h hsx.le
  have hmono : (branch (scaleCurve sx f c)).Pairwise (fun a b => a.1 ≤ b.1 ∧ a.2 ≤ b.2) := by
    refine List.Pairwise.imp_of_mem ?_ hsort
    intro a b ha hb hab
    refine ⟨hab, ?_⟩
    obtain ⟨p, hp, hp0, rfl⟩ := (hmem' a).1 ha
    obtain ⟨q, hq, hq0, rfl⟩ := (hmem' b).1 hb
    exact mul_le_mul_of_nonneg_right (rise' p hp q hq hp0 (le_of_mul_le_mul_right hab hsx)) hf.le
  have hon : ∀ q ∈ branch (scaleCurve sx f c), OnCurveBoth (scaled sx f nodes) q.1 q.2 := by
    intro q hq
    obtain ⟨p, hp, hp0, rfl⟩ := (hmem' q).1 hq
    rcases hmem p hp with a | a | a
    · refine onCurve_node (List.mem_map.2 ⟨p, a, rfl⟩) ?_
      unfold scaled
      rw [List.pairwise_map]
      exact hasc.imp fun h => mul_lt_mul_of_pos_right h.1 hsx
    · exact absurd hp0 (not_le.2 a.1)
    · left; right
      refine ⟨scaled sx f l, xl * sx, 1 * f, ?_, mul_le_mul_of_nonneg_right a.1 hsx.le, by rw [a.2]⟩
      rw [hl]
      simp [scaled]
  have hxlmem : (xl * sx, 1 * f) ∈ branch (scaleCurve sx f c) :=
    (hmem' _).2 ⟨(xl, 1), hn _ (by rw [hl]; simp), hxl, rfl⟩
  have hlast2 : last.2 = 1 * f ∧ xl * sx ≤ last.1 := by
    obtain ⟨L, hL⟩ := List.getLast?_eq_some_iff.1 hlast
    have hle : xl * sx ≤ last.1 ∧ 1 * f ≤ last.2 := by
      rw [hL] at hxlmem hmono
      rw [List.pairwise_append] at hmono
      rcases List.mem_append.1 hxlmem with h | h
      · exact hmono.2.2 _ h last (by simp)
      · rw [← List.mem_singleton.1 h]; exact ⟨le_rfl, le_rfl⟩
    obtain ⟨p, hp, hp0, e⟩ := (hmem' last).1 (List.mem_of_getLast? hlast)
    refine ⟨le_antisymm ?_ hle.2, hle.1⟩
    rw [e]
    apply mul_le_mul_of_nonneg_right _ hf.le
    rcases hmem p hp with a | a | a
    · exact (top p a).2
    · linarith [a.2]
    · exact a.2.le
  have hhead : (branch (scaleCurve sx f c)).head? = some (0, 0) := by
    cases hb : branch (scaleCurve sx f c) with
    | nil => rw [hb] at h0mem; exact absurd h0mem (by simp)
    | cons q t =>
      have hq : q ∈ branch (scaleCurve sx f c) := by rw [hb]; simp
      obtain ⟨p, hp, hp0, e⟩ := (hmem' q).1 hq
      have hq0 : q.1 ≤ 0 ∧ q.2 ≤ 0 := by
        rw [hb] at h0mem hmono
        rcases List.mem_cons.1 h0mem with h | h
        · rw [← h]; exact ⟨le_rfl, le_rfl⟩
        · exact (List.pairwise_cons.1 hmono).1 _ h
      have h1 : 0 ≤ q.1 := by rw [e]; exact mul_nonneg hp0 hsx.le
      have h2 : 0 ≤ q.2 := by rw [e]; exact mul_nonneg ((sign' p hp).1 hp0) hf.le
      rw [List.head?_cons]
      congr 1
      exact Prod.ext (le_antisymm hq0.1 h1) (le_antisymm hq0.2 h2)
  refine ⟨_, rotational_eq hlen ?_ hD.ne' hlast, ?_⟩
  · rw [hz]
    intro q hq
    obtain ⟨p, hp, rfl⟩ := List.mem_map.1 hq
    have := sign' p hp
    constructor <;> intro h
    · exact mul_nonneg (this.1 (nonneg_of_mul_nonneg_left h hsx)) hf.le
    · exact mul_nonneg (this.2 (nonneg_of_mul_nonneg_left h hf)) hsx.le
  · rw [List.forall₂_map_right_iff, List.forall₂_same]
    intro w _
    constructor
    · unfold continued
      simp only [List.length_map, List.length_append, List.length_range]
      omega
    · intro hw
      refine moment_curve _ hD hw hhead hlast hmono ?_ hon ?_ ?_
      · intro q hq
        obtain ⟨p, hp, hp0, rfl⟩ := (hmem' q).1 hq
        exact mul_nonneg hp0 hsx.le
      · intro x hx
        left; right
        refine ⟨scaled sx f l, xl * sx, 1 * f, ?_, hlast2.2.trans hx, hlast2.1⟩
        rw [hl]
        simp [scaled]
      · intro q hq hq0
        obtain ⟨p, hp, rfl⟩ := List.mem_map.1 hq
        exact (hmem' _).2 ⟨p, hn p hp, nonneg_of_mul_nonneg_left hq0 hsx, rfl⟩

theorem positive_length {x : List ℝ} {len : ℕ} {next : ℝ → ℕ → ℝ} {t : List ℝ} (hx : x.length ≤ len)
    (h : positive x len next = some t) : t.length = len := by
  unfold positive at h
  simp only [Option.bind_eq_bind, Option.bind_eq_some_iff, Option.pure_def, Option.some.injEq] at h
  obtain ⟨last, -, rfl⟩ := h
  have := List.length_filter_le (fun v => decide (0 ≤ v)) x
  simp only [List.length_append, List.length_map, List.length_range]
  omega

theorem positive_zero {x : List ℝ} {len : ℕ} (hx : x ≠ []) :
    ∃ t, positive (x.map (· * 0)) len (fun v _ => v) = some t ∧ ∀ v ∈ t, v = 0 := by
  unfold positive
  have e : x.map (· * (0 : ℝ)) = List.replicate x.length 0 := by
    rw [List.eq_replicate_iff]
    refine ⟨List.length_map _, fun b hb => ?_⟩
    obtain ⟨a, -, rfl⟩ := List.mem_map.1 hb
    exact mul_zero a
  have e2 : (List.replicate x.length (0 : ℝ)).filter (fun v => decide (0 ≤ v)) = List.replicate x.length 0 := by
    rw [List.filter_eq_self]
    intro v hv
    rw [(List.mem_replicate.1 hv).2]
    simp
  have e3 : (List.replicate x.length (0 : ℝ)).getLast? = some 0 := by
    rw [List.getLast?_replicate, if_neg (by simpa using hx)]
  dsimp only
  rw [e, e2, e3]
  refine ⟨_, rfl, fun v hv => ?_⟩
  rcases List.mem_append.1 hv with h | h
  · exact (List.mem_replicate.1 h).2
  · obtain ⟨i, -, rfl⟩ := List.mem_map.1 h
    rfl

theorem zipWith_zero {g : ℝ → ℝ} {C w : ℝ} {z t : List ℝ} (h : ∀ v ∈ t, C * v * w = 0) :
    List.zipWith (fun zi ti : ℝ => (g zi, C * ti * w)) z t = (z.take t.length).map (fun zi => (g zi, (0 : ℝ))) := by
  induction z generalizing t with
  | nil => simp
  | cons a z ih =>
    cases t with
    | nil => simp
    | cons b t =>
      rw [List.zipWith_cons_cons, List.length_cons, List.take_succ_cons, List.map_cons, h b List.mem_cons_self,
        ih fun v hv => h v (List.mem_cons_of_mem _ hv)]

theorem onCurve_zero {nodes : List (ℝ × ℝ)} {sx x tau : ℝ} (h : OnCurveBoth (scaled sx 1 nodes) x tau) :
    OnCurveBoth (scaled sx 0 nodes) x 0 := by
  have key : scaled sx 0 nodes = (scaled sx 1 nodes).map (fun q => (q.1, 0)) := by
    unfold scaled
    rw [List.map_map]
    exact List.map_congr_left fun q _ => by simp
  rw [key]
  rcases h with (⟨l₁, l₂, a, f, b, g, e, h1, h2, -⟩ | ⟨l, a, f, e, h1, -⟩) | ⟨l, a, f, e, h1, -⟩
  · exact Or.inl (Or.inl ⟨l₁.map (fun q => (q.1, 0)), l₂.map (fun q => (q.1, 0)), a, 0, b, 0, by rw [e]; simp, h1, h2, by ring⟩)
  · exact Or.inl (Or.inr ⟨l.map (fun q => (q.1, 0)), a, 0, by rw [e]; simp, h1, rfl⟩)
  · exact Or.inr ⟨l.map (fun q => (q.1, 0)), a, 0, by rw [e]; simp, h1, rfl⟩

/-- The same without friction. -/
theorem branch_zero {c : List ℝ × List ℝ} {N len : ℕ} {nodes l : List (ℝ × ℝ)} {xl D sx : ℝ} {norms : List ℝ}
    (hc : Curve N c) (hN : N ≤ len) (hD : 0 < D) (hsx : 0 < sx) (hl : nodes = l ++ [(xl, 1)])
    (hasc : nodes.Pairwise (fun a b => a.1 < b.1 ∧ a.2 ≤ b.2)) (hsign : ∀ q ∈ nodes, 0 ≤ q.1 ↔ 0 ≤ q.2)
    (hxl : 0 ≤ xl) (h00 : (0, 0) ∈ nodes) (hn : ∀ q ∈ nodes, q ∈ c.1.zip c.2)
    (hmem : ∀ q ∈ c.1.zip c.2, q ∈ nodes ∨ (q.1 < 0 ∧ q.2 < 0) ∨ (xl ≤ q.1 ∧ q.2 = 1)) :
    ∃ rows, rotational (scaleCurve sx 0 c) D len norms = some rows ∧
      List.Forall₂ (fun w r => r.length = len ∧ (0 ≤ w → MomentCurve D w (scaled sx 0 nodes) r)) norms rows := by
  obtain ⟨rows, h1, h2⟩ := branch_scaled (norms := norms.map (fun _ => 0)) hc hN hD hsx one_pos hl hasc hsign hxl h00 hn
    hmem
  have hne : c.2 ≠ [] := by
    intro h
    have := hn _ h00
    rw [h] at this
    simp at this
  obtain ⟨t, ht, ht0⟩ := positive_zero (len := len) hne
  refine ⟨rows, ?_, ?_⟩
  · rw [← h1]
    unfold rotational
    have e1 : (scaleCurve sx 0 c).1 = (scaleCurve sx 1 c).1 := rfl
    have e2 : (scaleCurve sx 0 c).2 = c.2.map (· * 0) := rfl
    rw [e1, e2, ht]
    unfold rotational at h1
    simp only [Option.bind_eq_bind, Option.bind_eq_some_iff] at h1
    obtain ⟨t', ht', z, hz, -⟩ := h1
    simp only [ht', hz, Option.bind_eq_bind, Option.bind_some, if_neg hD.ne', List.map_map, Option.pure_def]
    congr 1
    refine List.map_congr_left fun w _ => ?_
    have l1 : t.length = len := positive_length (by rw [List.length_map, hc.force]; exact hN) ht
    have l2 : t'.length = len := positive_length (by simp only [scaleCurve, List.length_map, hc.force]; exact hN) ht'
    rw [zipWith_zero (g := fun zi => Real.arctan (zi / (1 / 2 * D))) (fun v hv => by rw [ht0 v hv]; ring), Function.comp,
      zipWith_zero (g := fun zi => Real.arctan (zi / (1 / 2 * D))) (fun v _ => mul_zero _), l1, l2]
  · rw [List.forall₂_map_left_iff] at h2
    refine h2.imp ?_
    rintro w r ⟨k1, k2⟩
    refine ⟨k1, fun _ => ?_⟩
    obtain ⟨s, m, o, cr⟩ := k2 le_rfl
    refine ⟨s, m, fun q hq => ?_, fun q hq hq0 => ?_⟩
    · obtain ⟨x, tau, a1, a2, a3, a4, a5⟩ := o q hq
      refine ⟨x, 0, a1, onCurve_zero a2, a3, a4, ?_⟩
      rw [a5, ringMoment_eq, ringMoment_eq]
      ring
    · obtain ⟨p, hp, rfl⟩ := List.mem_map.1 hq
      have := cr (p.1 * sx, p.2 * 1) (List.mem_map.2 ⟨p, hp, rfl⟩) hq0
      rw [ringMoment_eq] at this ⊢
      simpa using this

/-- Both. -/
theorem branch_nonneg {c : List ℝ × List ℝ} {N len : ℕ} {nodes l : List (ℝ × ℝ)} {xl D sx f : ℝ} {norms : List ℝ}
    (hc : Curve N c) (hN : N ≤ len) (hD : 0 < D) (hsx : 0 < sx) (hf : 0 ≤ f) (hl : nodes = l ++ [(xl, 1)])
    (hasc : nodes.Pairwise (fun a b => a.1 < b.1 ∧ a.2 ≤ b.2)) (hsign : ∀ q ∈ nodes, 0 ≤ q.1 ↔ 0 ≤ q.2)
    (hxl : 0 ≤ xl) (h00 : (0, 0) ∈ nodes) (hn : ∀ q ∈ nodes, q ∈ c.1.zip c.2)
    (hmem : ∀ q ∈ c.1.zip c.2, q ∈ nodes ∨ (q.1 < 0 ∧ q.2 < 0) ∨ (xl ≤ q.1 ∧ q.2 = 1)) :
    ∃ rows, rotational (scaleCurve sx f c) D len norms = some rows ∧
      List.Forall₂ (fun w r => r.length = len ∧ (0 ≤ w → MomentCurve D w (scaled sx f nodes) r)) norms rows := by
  rcases hf.eq_or_lt with rfl | hf
  · exact branch_zero hc hN hD hsx hl hasc hsign hxl h00 hn hmem
  · exact branch_scaled hc hN hD hsx hf hl hasc hsign hxl h00 hn hmem

/-- **C63, clay.** The rotational springs of `API_clay` and `Modified_Matlock_clay`: as many equal curves as points
on the lateral spring, each the moment of the API friction around the perimeter. -/
theorem C63_clay (s : MatlockClay) (a : Args) (e : Env) (hr : IsRandom e.tzDraws)
    (hs : ∀ z, IsArgsort z (e.argsort z)) (hd : a.depth ≤ a.height) (hD : 0 < a.D) (hlen : 15 ≤ a.len) {Su f : ℝ}
    (hSu : layered s.Su a.depth a.height = some Su) (hf : fmaxClay a.sig Su 1 = some f) (hf0 : 0 ≤ f) :
    ∃ rows, s.mt a e = some rows ∧ rows.length = a.len ∧
      ∀ r ∈ rows, r.length = a.len ∧ MomentCurve a.D 1 (scaled a.D f (clayNodes 1 1)) r := by
  obtain ⟨c, h1, h2, h3, h4, -⟩ := Axial.C33_backbone_clay 1 1 (max 15 a.len) e.tzDraws e.argsort hr hs
  have hN : max 15 (max 15 a.len) ≤ a.len := by omega
  obtain ⟨rows, hrows, hall⟩ := branch_nonneg (norms := List.replicate a.len 1) h2 hN hD hD hf0
    (nodes := clayNodes 1 1) (xl := 0.02) (l := (clayNodes 1 1).dropLast) rfl
    (by simp only [clayNodes, List.pairwise_cons, List.mem_cons, List.not_mem_nil, or_false, forall_eq_or_imp, forall_eq,
          List.Pairwise.nil, and_true, IsEmpty.forall_iff, implies_true]
        norm_num)
    (by simp only [clayNodes, List.mem_cons, List.not_mem_nil, or_false, forall_eq_or_imp, forall_eq]
        norm_num)
    (by norm_num) (by simp [clayNodes]) h3 (by
      intro q hq
      rcases h4 q hq with h | h | h
      · exact Or.inl h
      · right; left; rw [h]; norm_num
      · exact Or.inr (Or.inr ⟨h.1, h.2.2⟩))
  have hl : rows.length = a.len := by rw [← hall.length_eq, List.length_replicate]
  refine ⟨rows, ?_, hl, ?_⟩
  · unfold MatlockClay.mt SoilModel.guard
    rw [if_neg (not_lt.2 hd)]
    simp only [hSu, tzApiClay, hf, h1, Option.bind_eq_bind, Option.bind_some, Option.pure_def]
    exact hrows
  · intro r hr
    obtain ⟨i, hi, rfl⟩ := List.getElem_of_mem hr
    have := (List.forall₂_iff_get.1 hall).2 i (by simpa [hl] using hi) hi
    simp only [List.get_eq_getElem, List.getElem_replicate] at this
    exact ⟨this.1, this.2 zero_le_one⟩

/-- **C63, sand.** The rotational springs of `API_sand`: one curve for each point of the lateral spring, the moment of
the API friction around the perimeter times the lateral resistance over its largest value. -/
theorem C63_sand (s : ApiSand) (a : Args) (e : Env) (hr : IsRandom e.tzDraws)
    (hs : ∀ z, IsArgsort z (e.argsort z)) (hd : a.depth ≤ a.height) (hD : 0 < a.D) (hlen : 15 ≤ a.len) {phi f : ℝ}
    (hphi : layered s.phi a.depth a.height = some phi) (hf : fmaxSand a.sig (phi - 5) 0.8 = some f) (hf0 : 0 ≤ f)
    {l : List (ℝ × ℝ)} (hl : s.py a = some l) {m : ℝ × ℝ} (hm : m ∈ l) (hmax : ∀ q ∈ l, q.2 ≤ m.2) :
    ∃ rows, s.mt a e = some rows ∧
      List.Forall₂ (fun q r => r.length = a.len ∧
        (0 ≤ q.2 → MomentCurve a.D (q.2 / m.2) (scaled 1 f (sandNodes 1)) r)) l rows := by
  obtain ⟨c, h1, h2, h3, h4, -⟩ := Axial.C33_backbone_sand 1 a.len e.tzDraws e.argsort hr hs
  have hN : max 15 a.len ≤ a.len := by omega
  have hnorm : ApiSand.normalised (l.map Prod.snd) = l.map (fun q => if 0 < m.2 then q.2 / m.2 else q.2) := by
    unfold ApiSand.normalised
    have : (l.map Prod.snd).max? = some m.2 := by
      rw [List.max?_eq_some_iff]
      refine ⟨List.mem_map_of_mem hm, ?_⟩
      intro y hy
      obtain ⟨q, hq, rfl⟩ := List.mem_map.1 hy
      exact hmax q hq
    rw [this]
    by_cases h0 : 0 < m.2
    · simp only [if_pos h0, List.map_map]
      rfl
    · simp only [if_neg h0]
  obtain ⟨rows, hrows, hall⟩ := branch_nonneg (norms := l.map (fun q => if 0 < m.2 then q.2 / m.2 else q.2)) h2 hN hD
    one_pos hf0
    (nodes := sandNodes 1) (xl := 0.0254) (l := (sandNodes 1).dropLast) rfl
    (by simp only [sandNodes, List.pairwise_cons, List.mem_cons, List.not_mem_nil, or_false, forall_eq_or_imp, forall_eq,
          List.Pairwise.nil, and_true, IsEmpty.forall_iff, implies_true]
        norm_num)
    (by simp only [sandNodes, List.mem_cons, List.not_mem_nil, or_false, forall_eq_or_imp, forall_eq]
        norm_num)
    (by norm_num) (by simp [sandNodes]) h3 (by
      intro q hq
      rcases h4 q hq with h | h | h
      · exact Or.inl h
      · right; left
        exact ⟨by linarith [h.2.1], by rw [h.2.2]; norm_num⟩
      · exact Or.inr (Or.inr ⟨h.1, h.2.2⟩))
  refine ⟨rows, ?_, ?_⟩
  · unfold ApiSand.mt SoilModel.guard
    rw [if_neg (not_lt.2 hd)]
    have e8 : (8 / 10 : ℝ) = 0.8 := by norm_num
    simp only [hphi, hl, tzApiSand, e8, hf, h1, hnorm, Option.bind_eq_bind, Option.bind_some, Option.pure_def]
    exact hrows
  · rw [List.forall₂_map_left_iff] at hall
    have hall := List.forall₂_iff_get.1 hall
    refine List.forall₂_iff_get.2 ⟨hall.1, fun i h1 h2 => ?_⟩
    have h := hall.2 i h1 h2
    refine ⟨h.1, fun h0 => ?_⟩
    by_cases hm0 : 0 < m.2
    · rw [if_pos hm0] at h
      exact h.2 (div_nonneg h0 hm0.le)
    · have hq : (l.get ⟨i, h1⟩).2 = 0 := le_antisymm ((hmax _ (List.get_mem _ _)).trans (not_lt.1 hm0)) h0
      rw [if_neg hm0, hq] at h
      rw [hq, zero_div]
      exact h.2 le_rfl

/-! ### PISA models -/

theorem mapM_forall₂ {α β : Type} {g : α → Option β} {l : List α} {r : List β} (h : l.mapM g = some r) :
    List.Forall₂ (fun a b => g a = some b) l r := by
  induction l generalizing r with
  | nil => simp only [List.mapM_nil, Option.pure_def, Option.some.injEq] at h; subst h; exact .nil
  | cons a l ih =>
    simp only [List.mapM_cons, Option.bind_eq_bind, Option.bind_eq_some_iff, Option.pure_def, Option.some.injEq] at h
    obtain ⟨b, hb, bs, hbs, rfl⟩ := h
    exact .cons hb (ih hbs)

theorem scaledConic_length {xu n k yu sx sy : ℝ} {len : ℕ} {l : List (ℝ × ℝ)}
    (h : Conic.scaledConic xu n k yu sx sy len = some l) : l.length = len := by
  unfold Conic.scaledConic Conic.conic at h
  by_cases hc : xu = 0 ∨ len < 5
  · rw [if_pos hc] at h; exact absurd h (by simp)
  · rw [if_neg hc] at h
    simp only [Option.map_eq_some_iff] at h
    obtain ⟨l', h', rfl⟩ := h
    rw [Conic.scale, List.length_map, ← (mapM_forall₂ h').length_eq, Conic.conicX_length _ (by omega)]

/-- Filling the table: with at least as many rows as the table has, either an `IndexError` or a full table. -/
theorem fill_full {len : ℕ} {p : List (ℝ × ℝ)} {g : ℝ × ℝ → Option (List (ℝ × ℝ))} {rows full : Table}
    (hp : len ≤ p.length) (hr : p.mapM g = some rows) (hf : fill len rows = some full) :
    p.length = len ∧ List.Forall₂ (fun q r => g q = some r) p full := by
  have h := mapM_forall₂ hr
  have hl := h.length_eq
  unfold fill at hf
  by_cases hlt : len < rows.length
  · rw [if_pos hlt] at hf; exact absurd hf (by simp)
  · rw [if_neg hlt, Option.some.injEq] at hf
    have e : len - rows.length = 0 := by omega
    rw [e, List.replicate_zero, List.append_nil] at hf
    subst hf
    exact ⟨by omega, h⟩

/-- A lateral curve function of the PISA models returns as many points as asked for (at least 8 in Dunkirk
sand), a rotational one exactly as many. -/
theorem pyDunkirk_length {sig X Dr G0 D L : ℝ} {len : ℕ} {l : List (ℝ × ℝ)}
    (h : Conic.pyDunkirk sig X Dr G0 D L len = some l) : l.length = max 8 len := by
  unfold Conic.pyDunkirk at h
  simp only at h
  split_ifs at h
  exact scaledConic_length h

theorem pyCurve_length {s : PisaClay} {a : Args} {Su G0 : ℝ} {l : List (ℝ × ℝ)} (h : s.pyCurve a Su G0 = some l) :
    l.length = a.len := by
  unfold PisaClay.pyCurve Conic.pyBothkennar Conic.pyCowden at h
  cases hk : s.kind <;> rw [hk] at h <;> simp only at h <;> split_ifs at h <;> exact scaledConic_length h

/-- The two ultimate moments of the clays, normalised. -/
noncomputable def clayMoment (k : ClayKind) (X Su G0 D : ℝ) (len : ℕ) : Option (List (ℝ × ℝ)) :=
  match k with
  | .bothkennar => Conic.mtBothkennar X Su G0 D len
  | .cowden => Conic.mtCowden X Su G0 D len

/-- **C63, Bothkennar and Cowden clay.** One rotational spring for each point of the lateral spring, all equal: the
curve of the material at this depth with the multipliers applied.  No row of the table is left over. -/
theorem C63_pisa_clay (s : PisaClay) (a : Args) {rows : Table} (h : s.mt a = some rows) :
    rows.length = a.len ∧ ∃ Su G0 tm mm c, layered s.Su a.depth a.height = some Su ∧
      layered s.G0 a.depth a.height = some G0 ∧ s.t.val a.X = some tm ∧ s.m.val a.X = some mm ∧
      clayMoment s.kind a.X Su G0 a.D a.len = some c ∧ c.length = a.len ∧
      rows = List.replicate a.len (c.map (fun q => (q.1 * tm, q.2 * mm))) := by
  unfold PisaClay.mt SoilModel.guard at h
  have h := Conic.ite_none h
  simp only [Option.bind_eq_bind, Option.bind_eq_some_iff, multiplyRows, Option.pure_def, Option.some.injEq] at h
  obtain ⟨Su, h1, G0, h2, p, hp, rws, hr, full, hf, tm, ht, mm, hm, rfl⟩ := h
  have hl := pyCurve_length hp
  obtain ⟨-, hall⟩ := fill_full hl.ge hr hf
  have hfl : full.length = a.len := by rw [← hall.length_eq, hl]
  have hlen : ∀ c, clayMoment s.kind a.X Su G0 a.D a.len = some c → c.length = a.len := by
    intro c hc
    unfold clayMoment Conic.mtBothkennar Conic.mtCowden at hc
    cases hk : s.kind <;> rw [hk] at hc <;> simp only at hc <;> split_ifs at hc <;> exact scaledConic_length hc
  have hrow : ∀ r ∈ full, clayMoment s.kind a.X Su G0 a.D a.len = some r := by
    intro r hr'
    obtain ⟨i, hi, rfl⟩ := List.getElem_of_mem hr'
    exact (List.forall₂_iff_get.1 hall).2 i (by rw [hall.length_eq]; exact hi) hi
  have hpos : 0 < a.len := by
    have : 5 ≤ a.len := by
      unfold PisaClay.pyCurve Conic.pyBothkennar Conic.pyCowden Conic.scaledConic Conic.conic at hp
      cases hk : s.kind <;> rw [hk] at hp <;> simp only at hp <;> split_ifs at hp with _ h5 <;>
        first | (simp at hp; done) | (push Not at h5; exact h5.2)
    omega
  refine ⟨by simpa using hfl, Su, G0, tm, mm, full[0]'(by omega), h1, h2, ht, hm, hrow _ (List.getElem_mem _),
    hlen _ (hrow _ (List.getElem_mem _)), ?_⟩
  rw [List.eq_replicate_iff]
  refine ⟨by simpa using hfl, ?_⟩
  intro r hr'
  obtain ⟨r', hr'', rfl⟩ := List.mem_map.1 hr'
  have h0 : 0 < full.length := by omega
  have e := (hrow r' hr'').symm.trans (hrow _ (List.getElem_mem h0))
  rw [Option.some.inj e]
  rfl

/-- **C63, Dunkirk sand.** One rotational spring for each point `(y, p)` of the lateral spring before its multipliers:
the reaction curve whose ultimate moment is the normalised one times `p D`, with the multipliers applied; it rises where
the normalised ultimate moment is at least 0.17, see C29 (`C63_dunkirk` for every depth along the pile). -/
theorem C63_dunkirk_rises (s : Dunkirk) (a : Args) (hD : 0 < a.D) (hs : 0 ≤ a.sig) (hL : 0 < a.L) {rows : Table}
    (h : s.mt a = some rows) :
    ∃ Dr G0 tm mm l, layered s.Dr a.depth a.height = some Dr ∧ layered s.G0 a.depth a.height = some G0 ∧
      s.t.val a.X = some tm ∧ s.m.val a.X = some mm ∧ Conic.pyDunkirk a.sig a.X Dr G0 a.D a.L a.len = some l ∧
      l.length = a.len ∧ (0 < G0 → 17 / 100 ≤ Conic.mtDunkirkMax a.X Dr a.L →
        List.Forall₂ (fun q r => ∃ c, Conic.ReactionCurve a.len (Conic.mtDunkirkMax a.X Dr a.L * (|q.2| * a.D)) c ∧
          r = c.map (fun q => (q.1 * tm, q.2 * mm))) l rows) := by
  unfold Dunkirk.mt SoilModel.guard at h
  have h := Conic.ite_none h
  simp only [Option.bind_eq_bind, Option.bind_eq_some_iff, multiplyRows, Option.pure_def, Option.some.injEq] at h
  obtain ⟨Dr, h1, G0, h2, p, hp, rws, hr, full, hf, tm, ht, mm, hm, rfl⟩ := h
  have hl := pyDunkirk_length hp
  obtain ⟨hl', hall⟩ := fill_full (by omega) hr hf
  refine ⟨Dr, G0, tm, mm, p, h1, h2, ht, hm, hp, hl', ?_⟩
  intro hG h17
  rw [List.forall₂_map_right_iff]
  refine hall.imp ?_
  intro q r hqr
  exact ⟨r, Conic.C29_mt_dunkirk_partial hD hG hs hL h17 hqr, rfl⟩

/-! ### the springs of a Model -/

/-- Layers without moment-rotation springs: API models unless they are asked for, weak rock always. -/
def WithoutMoment : SoilModel.Model → Prop
  | .apiSand s => s.mtCurves = false
  | .matlock s => s.mtCurves = false
  | .rock _ => True
  | _ => False

/-- Layers without springs at the base: all but the PISA models. -/
def WithoutBase : SoilModel.Model → Prop
  | .apiSand _ => True
  | .matlock _ => True
  | .rock _ => True
  | _ => False

/-- **C63, switched off.** Elements in a layer without moment-rotation springs get none. -/
theorem C63_off {S : Assemble.Input} {env : Assemble.Draws} {A : Assemble.Arrays}
    (hA : Assemble.createSprings S env = some A) {j : ℕ} {r : Assemble.Row} (hr : S.rows[j]? = some r)
    {l : Assemble.SoilLayer} (hl : Assemble.owners S r = [l]) {m : SoilModel.Model} (hm : l.lateral = some m)
    (hoff : WithoutMoment m ∨ S.distributedMoment = false) (b : Bool) :
    A.mt j b = List.replicate 15 (List.replicate 15 (0, 0)) := by
  apply (Assemble.C54_mt hA hr hl b).2
  rcases hoff with h | h
  · right; right
    refine ⟨m, hm, ?_⟩
    cases m <;> first | exact h | rfl | exact absurd h id
  · exact Or.inr (Or.inl h)

/-- The argument list of a spring at the top (`b = false`) or bottom of an element. -/
def sigAt (r : Assemble.Row) (b : Bool) : Option ℝ := if b then r.sigBottom else r.sigTop

def levelAt (r : Assemble.Row) (b : Bool) : ℝ := if b then r.bottom else r.top

/-- **C63, Model with clay.** In a Model that was created, both ends of every element inside an `API_clay` or
`Modified_Matlock_clay` layer with moment-rotation springs have 15 equal ones, with the friction for the strength and the
vertical stress there and the diameter of the element. -/
theorem C63_model_clay {S : Assemble.Input} {env : Assemble.Draws}
    (henv : ∀ z j b, IsRandom (env.mt z j b).tzDraws ∧ ∀ x, IsArgsort x ((env.mt z j b).argsort x))
    {A : Assemble.Arrays} (hA : Assemble.createSprings S env = some A) {j : ℕ} {r : Assemble.Row}
    (hr : S.rows[j]? = some r) {l : Assemble.SoilLayer} (hl : Assemble.owners S r = [l]) {s : MatlockClay}
    (hm : l.lateral = some (.matlock s)) (hmt : s.mtCurves = true) (hon : S.distributedMoment = true) (b : Bool)
    {sec : Pile.Section ℝ} (hsec : r.sec = some sec) (hD : 0 < sec.diameter) {Su sig f : ℝ}
    (hd : l.bottom ≤ levelAt r b)
    (hSu : layered s.Su (l.top - levelAt r b) (l.top - l.bottom) = some Su) (hsig : sigAt r b = some sig)
    (hf : fmaxClay sig Su 1 = some f) (hf0 : 0 ≤ f) :
    (A.mt j b).length = 15 ∧ ∀ c ∈ A.mt j b, c.length = 15 ∧
      MomentCurve sec.diameter 1 (scaled sec.diameter f (clayNodes 1 1)) c := by
  obtain ⟨sig', sec', e1, e2, e3⟩ := (Assemble.C54_mt hA hr hl b).1 (.matlock s) hm hmt hon
  have h1 : sig' = sig := Option.some.inj (e1.symm.trans hsig)
  have h2 : sec' = sec := Option.some.inj (e2.symm.trans hsec)
  subst h1 h2
  obtain ⟨rows, h, hlen, hall⟩ := C63_clay s (e := env.mt l.top j b) (hr := (henv _ _ _).1) (hs := (henv _ _ _).2)
    (a := { sig := sig', X := |levelAt r b - S.ground|, height := l.top - l.bottom, depth := l.top - levelAt r b,
            D := sec'.diameter, L := S.ground - S.tip, belowWater := decide (levelAt r b ≤ S.water), ymax := 0,
            len := 15 }) (by simp only []; linarith) hD le_rfl hSu hf hf0
  have e : A.mt j b = rows := Option.some.inj (e3.symm.trans h)
  rw [e]
  exact ⟨hlen, hall⟩

/-- **C63, Model with sand.** Likewise in an `API_sand` layer: one curve for each of the points of its lateral
spring (before the Model stores it), reduced by the mobilised fraction of the lateral resistance. -/
theorem C63_model_sand {S : Assemble.Input} {env : Assemble.Draws}
    (henv : ∀ z j b, IsRandom (env.mt z j b).tzDraws ∧ ∀ x, IsArgsort x ((env.mt z j b).argsort x))
    {A : Assemble.Arrays} (hA : Assemble.createSprings S env = some A) {j : ℕ} {r : Assemble.Row}
    (hr : S.rows[j]? = some r) {l : Assemble.SoilLayer} (hl : Assemble.owners S r = [l]) {s : ApiSand}
    (hm : l.lateral = some (.apiSand s)) (hmt : s.mtCurves = true) (hpy : S.distributedLateral = true)
    (hon : S.distributedMoment = true) (b : Bool)
    {sec : Pile.Section ℝ} (hsec : r.sec = some sec) (hD : 0 < sec.diameter) {phi sig f : ℝ}
    (hd : l.bottom ≤ levelAt r b)
    (hphi : layered s.phi (l.top - levelAt r b) (l.top - l.bottom) = some phi) (hsig : sigAt r b = some sig)
    (hf : fmaxSand sig (phi - 5) 0.8 = some f) (hf0 : 0 ≤ f) {m : ℝ × ℝ} (hmem : m ∈ A.py j b)
    (hmax : ∀ q ∈ A.py j b, q.2 ≤ m.2) :
    List.Forall₂ (fun q c => c.length = 15 ∧
      (0 ≤ q.2 → MomentCurve sec.diameter (q.2 / m.2) (scaled 1 f (sandNodes 1)) c)) (A.py j b) (A.mt j b) := by
  obtain ⟨sig', sec', e1, e2, e3⟩ := (Assemble.C54_mt hA hr hl b).1 (.apiSand s) hm hmt hon
  obtain ⟨sig'', sec'', f1, f2, f3⟩ := (Assemble.C54_py hA hr hl b).1 (.apiSand s) hm hpy
  have h1 : sig' = sig := Option.some.inj (e1.symm.trans hsig)
  have h2 : sec' = sec := Option.some.inj (e2.symm.trans hsec)
  have h1' : sig'' = sig := Option.some.inj (f1.symm.trans hsig)
  have h2' : sec'' = sec := Option.some.inj (f2.symm.trans hsec)
  subst h1 h2
  subst h1' h2'
  obtain ⟨rows, h, hall⟩ := C63_sand s
    (a := { sig := sig'', X := |levelAt r b - S.ground|, height := l.top - l.bottom, depth := l.top - levelAt r b,
            D := sec''.diameter, L := S.ground - S.tip, belowWater := decide (levelAt r b ≤ S.water), ymax := 0,
            len := 15 }) (env.mt l.top j b) (henv _ _ _).1 (henv _ _ _).2
    (by simp only []; linarith) hD le_rfl hphi hf hf0 f3 hmem hmax
  have e : A.mt j b = rows := Option.some.inj (e3.symm.trans h)
  rw [e]
  exact hall

/-! ### cases that meet the hypotheses -/

/-- A spring 5 m below the top of a layer of 10 m. -/
noncomputable def argsExample (X : ℝ) : Args := ⟨50, X, 10, 5, 2, 20, true, 0, 15⟩

noncomputable def envExample : Env := ⟨[], fun _ => 1 / 2, Axial.stableArgsort⟩

example (curve : MatlockKind) : ∃ rows,
    (⟨curve, .scalar 40, .scalar (1 / 100), 1 / 4, .static, .num 1, .num 1, true⟩ : MatlockClay).mt
      (argsExample 8) envExample = some rows ∧ rows.length = 15 := by
  have hf := Friction.C35_clay_law 50 40 1 (by norm_num) (by norm_num)
  obtain ⟨rows, h, hl, -⟩ := C63_clay ⟨curve, .scalar 40, .scalar (1 / 100), 1 / 4, .static, .num 1, .num 1, true⟩
    (argsExample 8) envExample (fun _ => by norm_num [envExample]) Axial.stableArgsort_spec (by norm_num [argsExample])
    (by norm_num [argsExample]) (by simp [argsExample]) (Su := 40)
    (by norm_num [argsExample, layered, topBottom]) hf
    (mul_pos (lt_min (Friction.adhesion_pos (by norm_num)) one_pos) (by norm_num)).le
  exact ⟨rows, h, hl⟩

/-- Every `API_sand` spring at 0.1 m depth or more with a friction angle between 5 and 90 degrees. -/
example (phi : ℝ) (h0 : 5 < phi) (h1 : phi < 90) (kind : Lateral.Loading) (X : ℝ) (hX : 1 / 10 ≤ X) : ∃ rows,
    (⟨.scalar phi, kind, none, none, .num 1, .num 1, true⟩ : ApiSand).mt (argsExample X) envExample = some rows ∧
      rows.length = 15 := by
  obtain ⟨l, kphi, hl, -, hlen, -, -, hb⟩ := Lateral.C30_curve (sig := 50) (X := X) (phi := phi) (D := 2) (kind := kind)
    (w := true) (k := 0) (ymax := 0) (len := 15) (by linarith) h1 (by norm_num) (by linarith) (by norm_num) le_rfl le_rfl
  obtain ⟨y, p, -, hlast, -, -, hp⟩ := Lateral.C30_default_end (by linarith) h1 (by norm_num) hX (by norm_num) hl
  have hP := (Lateral.C30_ultimate (sig := 50) (X := X) (phi := phi) (D := 2) (by linarith) h1 (by norm_num)
    (by linarith) (by norm_num)).2 ⟨by norm_num, by linarith⟩
  have hA : 0 < Lateral.factor kind X 2 := lt_of_lt_of_le (by norm_num) (Lateral.factor_pos kind X 2)
  have hp0 : 0 < p := lt_trans (by positivity) hp
  have hne : l.map Prod.snd ≠ [] := by
    intro h
    rw [List.map_eq_nil_iff] at h
    rw [h] at hlen
    simp at hlen
  obtain ⟨m, hm⟩ : ∃ m, (l.map Prod.snd).max? = some m := by
    cases h : (l.map Prod.snd).max? with
    | none => exact absurd (List.max?_eq_none_iff.1 h) hne
    | some m => exact ⟨m, rfl⟩
  rw [List.max?_eq_some_iff] at hm
  obtain ⟨q, hq, rfl⟩ := List.mem_map.1 hm.1
  have hmax : ∀ r ∈ l, r.2 ≤ q.2 := fun r hr => hm.2 _ (List.mem_map_of_mem hr)
  have hphi : layered (.scalar phi) (argsExample X).depth (argsExample X).height = some phi := by
    norm_num [argsExample, layered, topBottom]
  have hpy : (⟨.scalar phi, kind, none, none, .num 1, .num 1, true⟩ : ApiSand).py (argsExample X) = some l := by
    unfold ApiSand.py SoilModel.guard ApiSand.subgrade
    rw [if_neg (by norm_num [argsExample]), hphi]
    simp only [Option.bind_eq_bind, Option.bind_some, argsExample, hl, Layer.multiply_one]
  obtain ⟨f, hf⟩ := Friction.C35_sand_total 50 (phi - 5) 0.8
  have hf0 := (Friction.C35_sand_bounds_partial 50 (phi - 5) 0.8 f (by norm_num) (by norm_num) (by linarith)
    (by linarith) hf).2.2.2 (by norm_num) (by norm_num) (by linarith)
  obtain ⟨rows, h, hall⟩ := C63_sand ⟨.scalar phi, kind, none, none, .num 1, .num 1, true⟩ (argsExample X) envExample
    (fun _ => by norm_num [envExample]) Axial.stableArgsort_spec (by norm_num [argsExample])
    (by norm_num [argsExample]) (by simp [argsExample]) hphi hf hf0.le hpy hq hmax
  refine ⟨rows, h, ?_⟩
  rw [← hall.length_eq, hlen]
  norm_num

/-- A conic that never meets the degenerate case. -/
theorem conic_some {xu n k yu : ℝ} {len : ℕ} (hx : 0 < xu) (hy : 0 < yu) (hn : 0 ≤ n) (hn1 : n < 1) (h5 : 5 ≤ len)
    (h : n / xu ≤ max (yu / xu) k / yu * (1 - n)) (sx sy : ℝ) :
    ∃ l, Conic.scaledConic xu n k yu sx sy len = some l := by
  have : (Conic.conic xu n k yu len).isSome := by
    rw [Conic.C28_defined_partial hx hy hn hn1]
    refine ⟨h5, ?_⟩
    intro x hxm hle hc
    have h0 := Conic.conicX_nonneg hx len hxm
    rcases h0.eq_or_lt with rfl | hpos
    · simp; linarith
    · exfalso
      have hxx : x / xu < 1 := (div_lt_one hx).2 (by linarith)
      have e1 : max (yu / xu) k / yu * (1 - n) = n / xu * (x / xu) := by
        have : x * (max (yu / xu) k / yu * (1 - n)) = x * (n / xu * (x / xu)) := by
          calc x * (max (yu / xu) k / yu * (1 - n)) = max (yu / xu) k / yu * x * (1 - n) := by ring
            _ = n * (x / xu) ^ 2 := hc
            _ = _ := by field_simp
        exact mul_left_cancel₀ hpos.ne' this
      rcases hn.eq_or_lt with rfl | hn0
      · have h2 : 0 < max (yu / xu) k / yu * (1 - 0) := by
          have := lt_of_lt_of_le (div_pos hy hx) (le_max_left (yu / xu) k)
          rw [sub_zero, mul_one]
          exact div_pos this hy
        rw [e1] at h2
        simp at h2
      · have h3 := div_pos hn0 hx
        have : n / xu * (x / xu) < n / xu := mul_lt_of_lt_one_right h3 hxx
        linarith
  obtain ⟨c, hc⟩ := Option.isSome_iff_exists.1 this
  exact ⟨_, by unfold Conic.scaledConic; rw [hc]; rfl⟩

example : ∃ rows, (⟨.cowden, .scalar 40, .scalar 20000, .num 1, .num 1, .num 2, .num 1⟩ : PisaClay).mt
    (argsExample 0) = some rows := by
  obtain ⟨l, hl⟩ := conic_some (xu := 2414 / 10) (n := 9390 / 10000 + -3345 / 100000 * 0 / 2)
    (k := 106 / 10 + -1650 / 1000 * 0 / 2) (yu := 107 / 10 + -7101 / 1000 * Real.exp (-3085 / 10000 * 0 / 2)) (len := 15)
    (by norm_num) (by norm_num) (by norm_num) (by norm_num) (by norm_num) (by norm_num) (40 * 2 / 20000) (40 * 2)
  obtain ⟨r, hr⟩ := conic_some
    (xu := (2899 / 10000 + -4775 / 100000 * 0 / 2) / (1420 / 1000 + -9643 / 100000 * 0 / 2))
    (n := 0 + 0 * 0 / 2) (k := 1420 / 1000 + -9643 / 100000 * 0 / 2) (yu := 2899 / 10000 + -4775 / 100000 * 0 / 2)
    (len := 15) (by norm_num) (by norm_num) (by norm_num) (by norm_num) (by norm_num) (by norm_num) (40 / 20000)
    (40 * 2 ^ 2)
  have hl' : (⟨.cowden, .scalar 40, .scalar 20000, .num 1, .num 1, .num 2, .num 1⟩ : PisaClay).pyCurve
      (argsExample 0) 40 20000 = some l := by
    unfold PisaClay.pyCurve Conic.pyCowden
    exact (if_neg (by norm_num [argsExample])).trans hl
  have hr' : Conic.mtCowden (argsExample 0).X 40 20000 (argsExample 0).D (argsExample 0).len = some r := by
    unfold Conic.mtCowden
    exact (if_neg (by norm_num [argsExample])).trans ((if_neg (by norm_num [argsExample])).trans hr)
  have hll := pyCurve_length hl'
  have hlay : ∀ v : ℝ, layered (.scalar v) (argsExample 0).depth (argsExample 0).height = some v := by
    intro v
    norm_num [argsExample, layered, topBottom]
  unfold PisaClay.mt SoilModel.guard
  rw [if_neg (by norm_num [argsExample])]
  simp only [hlay, Option.bind_eq_bind, Option.bind_some, hl', hr']
  have hm : ∀ l : List (ℝ × ℝ), l.mapM (fun _ => some r) = some (l.map (fun _ => r)) := by
    intro l
    induction l with
    | nil => rfl
    | cons a l ih => simp [List.mapM_cons, ih]
  rw [hm]
  simp only [Option.bind_some]
  unfold fill
  rw [if_neg (by rw [List.length_map, hll]; simp)]
  exact ⟨_, rfl⟩

example : ∃ rows, (⟨.scalar 50, .scalar 20000, .num 1, .num 1, .num 2, .num 1⟩ : Dunkirk).mt (argsExample 0) = some rows ∧
    17 / 100 ≤ Conic.mtDunkirkMax (argsExample 0).X 50 (argsExample 0).L := by
  obtain ⟨l, hl⟩ := conic_some (xu := 1461 / 10 - 9211 / 100 * (50 / 100)) (n := 917 / 1000 + 6193 / 100000 * (50 / 100))
    (k := 8731 / 1000 - 6982 / 10000 * (50 / 100) + -9178 / 10000 * 0 / 2)
    (yu := 3667 / 10000 + 2589 / 100 * (50 / 100) + (3375 / 10000 - 89 / 10 * (50 / 100)) * 0 / 20) (len := max 8 15)
    (by norm_num) (by norm_num) (by norm_num) (by norm_num) (by norm_num) (by norm_num) (50 * 2 / 20000) (50 * 2)
  have hl' : Conic.pyDunkirk (argsExample 0).sig (argsExample 0).X 50 20000 (argsExample 0).D (argsExample 0).L
      (argsExample 0).len = some l := by
    unfold Conic.pyDunkirk
    exact (if_neg (by norm_num [argsExample])).trans hl
  have hr' : ∀ q : ℝ × ℝ, ∃ r, Conic.mtDunkirk (argsExample 0).sig (argsExample 0).X 50 20000 q.2 (argsExample 0).D
      (argsExample 0).L (argsExample 0).len = some r := by
    intro q
    obtain ⟨r, hr⟩ := conic_some
      (xu := (2605 / 10000 + (-1989 / 10000 + 2019 / 10000 * (50 / 100)) * 0 / 20) / (17 + 0 * 0 / 2)) (n := 0)
      (k := 17 + 0 * 0 / 2) (yu := 2605 / 10000 + (-1989 / 10000 + 2019 / 10000 * (50 / 100)) * 0 / 20) (len := 15)
      (by norm_num) (by norm_num) (by norm_num) (by norm_num) (by norm_num) (by norm_num) (50 / 20000) (|q.2| * 2)
    refine ⟨r, ?_⟩
    unfold Conic.mtDunkirk
    exact (if_neg (by norm_num [argsExample])).trans hr
  have hll : l.length = 15 := pyDunkirk_length hl'
  have hlay : ∀ v : ℝ, layered (.scalar v) (argsExample 0).depth (argsExample 0).height = some v := by
    intro v
    norm_num [argsExample, layered, topBottom]
  choose g hg using hr'
  have hm : ∀ l : List (ℝ × ℝ), l.mapM (fun q : ℝ × ℝ => Conic.mtDunkirk (argsExample 0).sig (argsExample 0).X 50 20000
      q.2 (argsExample 0).D (argsExample 0).L (argsExample 0).len) = some (l.map g) := by
    intro l
    induction l with
    | nil => rfl
    | cons a l ih => rw [List.mapM_cons, ih, hg]; rfl
  have hmt : ∃ rows, (⟨.scalar 50, .scalar 20000, .num 1, .num 1, .num 2, .num 1⟩ : Dunkirk).mt (argsExample 0)
      = some rows := by
    unfold Dunkirk.mt SoilModel.guard
    rw [if_neg (by norm_num [argsExample])]
    simp only [hlay, Option.bind_eq_bind, Option.bind_some, hl', hm]
    unfold fill
    rw [if_neg (by rw [List.length_map, hll]; simp [argsExample])]
    exact ⟨_, rfl⟩
  obtain ⟨rows, h⟩ := hmt
  exact ⟨rows, h, by norm_num [argsExample, Conic.mtDunkirkMax]⟩

end OpenPile.Props.Rotational

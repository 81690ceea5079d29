/-
C34: the Kraft t-z curve.
-/
import Verif.Lemmas.Axial
import Verif.Lemmas.Sand

namespace OpenPile.Props.Kraft
open OpenPile.Axial OpenPile.Spring
open OpenPile.Conic (linspace)

/-- Kraft's displacement at friction `t`: `t D / (2 G0) ln((zif - RF t / fmax) / (1 - RF t / fmax))`. -/
noncomputable def kraftZ (fmax D G0 rf zif t : ℝ) : ℝ :=
  t * D / (2 * G0) * Real.log ((zif - rf * (t / fmax)) / (1 - rf * (t / fmax)))

theorem mirror_length (fac : ℝ) {l : List ℝ} (h : l ≠ []) :
    (mirror fac l).length + 1 = 2 * l.length := by
  have : 0 < l.length := List.length_pos_iff.2 h
  simp only [mirror, List.length_append, List.length_map, List.length_reverse, List.length_drop]
  omega

theorem half_length (n : ℕ) (h : 15 ≤ n) : roundHalf n - 2 + 2 = roundHalf n := by
  unfold roundHalf; split_ifs <;> omega

/-- The vectors computed when no logarithm fails. -/
theorem kraft_vectors {fmax D G0 res tens rf zif : ℝ} {len : ℕ} {c : List ℝ × List ℝ}
    (h : kraft fmax D G0 res tens rf zif len = some c) :
    ∃ zpos zres, zpos.length = roundHalf (kraftLength len) - 2 ∧
      c.1 = mirror 1 (zpos ++ [zres, zres + 5 / 1000]) ∧
      c.2 = mirror tens (linspace 0 fmax (roundHalf (kraftLength len) - 2)
        ++ [res * fmax, res * fmax]) := by
  unfold kraft at h
  simp only [Option.pure_def, Option.bind_eq_bind] at h
  split_ifs at h with h0
  rw [Option.bind_eq_some_iff] at h
  obtain ⟨zpos, hz, h⟩ := h
  rw [Option.bind_eq_some_iff] at h
  obtain ⟨l, hl, h⟩ := h
  simp only [Option.some.injEq] at h
  refine ⟨zpos, _, ?_, by rw [← h], by rw [← h]⟩
  have := (Conic.mapM_forall₂ hz).length_eq
  rw [← this, Conic.linspace_length]

theorem kraftLength_ge (len : ℕ) : 15 ≤ kraftLength len := by
  unfold kraftLength; split_ifs <;> omega

theorem kraft_len {fmax D G0 res tens rf zif : ℝ} {len : ℕ} {c : List ℝ × List ℝ}
    (h : kraft fmax D G0 res tens rf zif len = some c) :
    c.1.length + 1 = 2 * roundHalf (kraftLength len) ∧
    c.2.length + 1 = 2 * roundHalf (kraftLength len) := by
  obtain ⟨zpos, zres, h1, h2, h3⟩ := kraft_vectors h
  have h4 := half_length _ (kraftLength_ge len)
  rw [h2, h3, mirror_length _ (by simp), mirror_length _ (by simp)]
  simp only [List.length_append, List.length_cons, List.length_nil, h1, Conic.linspace_length]
  omega

/-- The number of points for every requested length: only lengths `4 k + 3` are honoured. -/
theorem C34_length (fmax D G0 res tens rf zif : ℝ) (len : ℕ) (c : List ℝ × List ℝ)
    (h : kraft fmax D G0 res tens rf zif len = some c) :
    c.1.length = c.2.length ∧ (len < 15 → c.1.length = 15) ∧
    (15 ≤ len → (len % 4 = 3 → c.1.length = len) ∧ (len % 4 = 2 → c.1.length = len + 1) ∧
      (len % 4 = 1 → c.1.length = len - 2) ∧ (len % 4 = 0 → c.1.length = len - 1)) := by
  obtain ⟨h1, h2⟩ := kraft_len h
  refine ⟨by omega, fun hl => ?_, fun hl => ⟨fun hm => ?_, fun hm => ?_, fun hm => ?_, fun hm => ?_⟩⟩
  all_goals
    unfold kraftLength roundHalf at h1
    split_ifs at h1 <;> omega

/-- A requested odd length of at least 15 is not honoured if it is one more than a multiple of four. -/
theorem C34_violated_length (fmax D G0 res tens rf zif : ℝ) (len : ℕ) (c : List ℝ × List ℝ)
    (hl : 15 ≤ len) (hm : len % 4 = 1) (h : kraft fmax D G0 res tens rf zif len = some c) :
    c.1.length = len - 2 ∧ c.1.length ≠ len := by
  have := ((C34_length _ _ _ _ _ _ _ _ _ h).2.2 hl).2.2.1 hm
  exact ⟨this, by omega⟩

/-! ### shape -/

theorem arg_mono {zif u v : ℝ} (hz : 1 ≤ zif) (huv : u ≤ v) (hv : v < 1) :
    (zif - u) / (1 - u) ≤ (zif - v) / (1 - v) := by
  rw [div_le_div_iff₀ (by linarith) (by linarith)]
  nlinarith

theorem arg_ge {zif u : ℝ} (hz : 1 ≤ zif) (hu : u < 1) : 1 ≤ (zif - u) / (1 - u) := by
  rw [le_div_iff₀ (by linarith)]; linarith

theorem kraftZ_mono {fmax D G0 rf zif s t : ℝ} (hf : 0 < fmax) (hD : 0 ≤ D) (hG : 0 < G0)
    (h0 : 0 ≤ rf) (h1 : rf < 1) (hz : 1 ≤ zif) (hs : 0 ≤ s) (hst : s ≤ t) (ht : t ≤ fmax) :
    0 ≤ kraftZ fmax D G0 rf zif s ∧ kraftZ fmax D G0 rf zif s ≤ kraftZ fmax D G0 rf zif t := by
  have e1 : rf * (s / fmax) ≤ rf * (t / fmax) :=
    mul_le_mul_of_nonneg_left (div_le_div_of_nonneg_right hst hf.le) h0
  have e2 : rf * (t / fmax) < 1 := by
    have : t / fmax ≤ 1 := (div_le_one hf).2 ht
    nlinarith
  have a1 := arg_mono hz e1 e2
  have a2 := arg_ge hz (lt_of_le_of_lt e1 e2)
  have l1 := Real.log_nonneg a2
  have l2 := Real.log_le_log (by linarith) a1
  have c1 : s * D / (2 * G0) ≤ t * D / (2 * G0) :=
    div_le_div_of_nonneg_right (mul_le_mul_of_nonneg_right hst hD) (by linarith)
  have c2 : 0 ≤ s * D / (2 * G0) := div_nonneg (mul_nonneg hs hD) (by linarith)
  exact ⟨mul_nonneg c2 l1, mul_le_mul c1 l2 l1 (c2.trans c1)⟩

/-- The frictions of the rising part. -/
noncomputable def risingT (fmax : ℝ) (len : ℕ) : List ℝ :=
  linspace 0 fmax (roundHalf (kraftLength len) - 2)

theorem kraft_eq {fmax D G0 res tens rf zif : ℝ} (len : ℕ) (hf : 0 < fmax) (hG : 0 < G0)
    (h0 : 0 ≤ rf) (h1 : rf < 1) (hz : 1 ≤ zif) :
    kraft fmax D G0 res tens rf zif len = some
      (mirror 1 ((risingT fmax len).map (kraftZ fmax D G0 rf zif)
        ++ [kraftZ fmax D G0 rf zif fmax + 5 / 1000, kraftZ fmax D G0 rf zif fmax + 5 / 1000 + 5 / 1000]),
       mirror tens (risingT fmax len ++ [res * fmax, res * fmax])) := by
  have lq : ∀ u, u < 1 → logQuot (zif - u) (1 - u) = some (Real.log ((zif - u) / (1 - u))) := by
    intro u hu
    unfold logQuot
    rw [if_neg]
    have := arg_ge hz hu
    rw [not_or]
    exact ⟨by linarith, by linarith⟩
  have hz' : (risingT fmax len).mapM (fun t : ℝ =>
      (logQuot (zif - rf * t / fmax) (1 - rf * t / fmax)).map (fun l => t * (1 / 2) * D / G0 * l)) =
      some ((risingT fmax len).map (kraftZ fmax D G0 rf zif)) := by
    refine mapM_some_map _ _ _ fun t ht => ?_
    have hb := Lateral.linspace_mem_le hf.le ht
    have e2 : rf * (t / fmax) < 1 := by
      have : t / fmax ≤ 1 := (div_le_one hf).2 hb.2
      have : 0 ≤ t / fmax := div_nonneg hb.1 hf.le
      nlinarith
    rw [mul_div_assoc rf, lq _ e2]
    simp only [Option.map_some, Option.some.injEq, kraftZ]
    congr 1
    field_simp
  unfold kraft
  simp only [Option.pure_def, Option.bind_eq_bind]
  rw [if_neg (by rw [not_or]; exact ⟨hf.ne', hG.ne'⟩)]
  rw [show linspace 0 fmax (roundHalf (kraftLength len) - 2) = risingT fmax len from rfl, hz', lq _ h1]
  simp only [Option.bind_some, Option.some.injEq, Prod.mk.injEq, and_true]
  have : fmax * D / (2 * G0) * Real.log ((zif - rf) / (1 - rf)) = kraftZ fmax D G0 rf zif fmax := by
    unfold kraftZ; rw [div_self hf.ne', mul_one]
  rw [this]

theorem mirror_reverse {l : List ℝ} (h : l.head? = some 0) :
    (mirror 1 l).reverse = (mirror 1 l).map (fun x => -x) := by
  cases l with
  | nil => simp at h
  | cons a r =>
    simp only [List.head?_cons, Option.some.injEq] at h
    subst h
    simp [mirror]

theorem mirror_zip (fac : ℝ) {z t : List ℝ} (h : z.length = t.length) :
    (mirror 1 z).zip (mirror fac t) =
      ((z.zip t).drop 1).reverse.map (fun q => (-q.1, -(fac * q.2))) ++ z.zip t := by
  unfold mirror
  rw [List.zip_append (by simp [h]), List.zip_map]
  congr 1
  have e : (z.drop 1).reverse.zip (t.drop 1).reverse = ((z.zip t).drop 1).reverse := by
    rw [List.zip_eq_zipWith, List.zip_eq_zipWith, List.drop_zipWith,
      List.reverse_zipWith (by simp [h])]
  rw [e]
  apply List.map_congr_left
  intro q _
  simp [Prod.map]

/-- Shape of the Kraft curve for positive peak friction and stiffness, `0 ≤ RF < 1 ≤ zif`: it exists,
both vectors have the same length, displacements ascend and are symmetric, compression points up to the
peak obey Kraft's formula, then the residual friction follows after 5 mm and 10 mm, and tension points
are the compression points with the friction reduced by the tensile factor. -/
theorem C34_shape (fmax D G0 res tens rf zif : ℝ) (len : ℕ) (hf : 0 < fmax) (hD : 0 ≤ D)
    (hG : 0 < G0) (h0 : 0 ≤ rf) (h1 : rf < 1) (hz : 1 ≤ zif) :
    ∃ c, kraft fmax D G0 res tens rf zif len = some c ∧
      c.1.length = c.2.length ∧ c.1.Pairwise (· ≤ ·) ∧ c.1.reverse = c.1.map (fun x => -x) ∧
      (tens = 1 → c.2.reverse = c.2.map (fun x => -x)) ∧
      (0, 0) ∈ c.1.zip c.2 ∧ (kraftZ fmax D G0 rf zif fmax, fmax) ∈ c.1.zip c.2 ∧
      (∀ q ∈ c.1.zip c.2, 0 < q.1 →
        (0 ≤ q.2 ∧ q.2 ≤ fmax ∧ q.1 = kraftZ fmax D G0 rf zif q.2) ∨
        (q.2 = res * fmax ∧ (q.1 = kraftZ fmax D G0 rf zif fmax + 5 / 1000 ∨
          q.1 = kraftZ fmax D G0 rf zif fmax + 10 / 1000))) ∧
      (∀ q ∈ c.1.zip c.2, 0 < q.1 → (-q.1, -(tens * q.2)) ∈ c.1.zip c.2) ∧
      (∀ q ∈ c.1.zip c.2, q.1 < 0 → ∃ p ∈ c.1.zip c.2, q = (-p.1, -(tens * p.2))) ∧
      (0 ≤ res → res ≤ 1 → 0 ≤ tens → tens ≤ 1 → ∀ q ∈ c.1.zip c.2, |q.2| ≤ fmax) := by
  have hk := kraft_eq (D := D) (res := res) (tens := tens) len hf hG h0 h1 hz
  have hlen := kraft_len hk
  set zm := kraftZ fmax D G0 rf zif fmax with hzm
  set zp := (risingT fmax len).map (kraftZ fmax D G0 rf zif) ++ [zm + 5 / 1000, zm + 5 / 1000 + 5 / 1000]
    with hzp
  set tp := risingT fmax len ++ [res * fmax, res * fmax] with htp
  have hh : 2 ≤ roundHalf (kraftLength len) - 2 := by
    have := kraftLength_ge len
    unfold roundHalf; split_ifs <;> omega
  have hmem : ∀ t ∈ risingT fmax len, 0 ≤ t ∧ t ≤ fmax := fun t ht => Lateral.linspace_mem_le hf.le ht
  obtain ⟨r, hr⟩ : ∃ r, risingT fmax len = 0 :: r := by
    have := Lateral.linspace_head 0 fmax (n := roundHalf (kraftLength len) - 2) (by omega)
    change (risingT fmax len).head? = _ at this
    cases e : risingT fmax len with
    | nil => rw [e] at this; simp at this
    | cons a r => rw [e] at this; simp at this; exact ⟨r, by rw [this]⟩
  have hk0 : kraftZ fmax D G0 rf zif 0 = 0 := by unfold kraftZ; simp
  have hlast : fmax ∈ risingT fmax len := by
    have := Lateral.linspace_last 0 fmax hh
    exact List.mem_of_getLast? this
  have hzm0 : 0 ≤ zm := (kraftZ_mono hf hD hG h0 h1 hz hf.le le_rfl le_rfl).1
  have hhz : zp.head? = some 0 := by rw [hzp, hr]; simp [hk0]
  have hht : tp.head? = some 0 := by rw [htp, hr]; simp
  have hzt : zp.length = tp.length := by simp [hzp, htp]
  have hzip : zp.zip tp = (risingT fmax len).map (fun t => (kraftZ fmax D G0 rf zif t, t)) ++
      [(zm + 5 / 1000, res * fmax), (zm + 5 / 1000 + 5 / 1000, res * fmax)] := by
    rw [hzp, htp, List.zip_append (by simp)]
    congr 1
    generalize risingT fmax len = l
    induction l with
    | nil => rfl
    | cons a l ih => simp [ih]
  have hzs : zp.Pairwise (· ≤ ·) := by
    rw [hzp, List.pairwise_append, List.pairwise_map]
    refine ⟨?_, by norm_num, ?_⟩
    · exact (Lateral.linspace_pairwise_le hf.le _).imp_of_mem fun ha hb hab =>
        (kraftZ_mono hf hD hG h0 h1 hz (hmem _ ha).1 hab (hmem _ hb).2).2
    · intro a ha b hb
      obtain ⟨t, ht, rfl⟩ := List.mem_map.1 ha
      have := (kraftZ_mono hf hD hG h0 h1 hz (hmem _ ht).1 (hmem _ ht).2 le_rfl).2
      simp only [List.mem_cons, List.not_mem_nil, or_false] at hb
      rcases hb with rfl | rfl <;> linarith
  have hz0 : ∀ z ∈ zp, 0 ≤ z := by
    intro z h
    rw [hzp, List.mem_append, List.mem_map] at h
    rcases h with ⟨t, ht, rfl⟩ | h
    · exact (kraftZ_mono hf hD hG h0 h1 hz (hmem _ ht).1 le_rfl (hmem _ ht).2).1
    · simp only [List.mem_cons, List.not_mem_nil, or_false] at h
      rcases h with rfl | rfl <;> linarith
  have hpt : ∀ q ∈ zp.zip tp, 0 ≤ q.1 ∧
      ((0 ≤ q.2 ∧ q.2 ≤ fmax ∧ q.1 = kraftZ fmax D G0 rf zif q.2) ∨
        (q.2 = res * fmax ∧ (q.1 = zm + 5 / 1000 ∨ q.1 = zm + 10 / 1000))) := by
    intro q hq
    refine ⟨hz0 _ (List.of_mem_zip (show (q.1, q.2) ∈ zp.zip tp from hq)).1, ?_⟩
    rw [hzip, List.mem_append, List.mem_map] at hq
    rcases hq with ⟨t, ht, rfl⟩ | hq
    · exact Or.inl ⟨(hmem t ht).1, (hmem t ht).2, rfl⟩
    · simp only [List.mem_cons, List.not_mem_nil, or_false] at hq
      rcases hq with rfl | rfl
      · exact Or.inr ⟨rfl, Or.inl rfl⟩
      · exact Or.inr ⟨rfl, Or.inr (by ring)⟩
  have hmz : ∀ q, q ∈ (mirror 1 zp).zip (mirror tens tp) ↔
      (∃ p ∈ (zp.zip tp).drop 1, q = (-p.1, -(tens * p.2))) ∨ q ∈ zp.zip tp := by
    intro q
    rw [mirror_zip tens hzt, List.mem_append, List.mem_map]
    simp only [List.mem_reverse]
    exact or_congr ⟨fun ⟨p, h, h'⟩ => ⟨p, h, h'.symm⟩, fun ⟨p, h, h'⟩ => ⟨p, h, h'.symm⟩⟩ Iff.rfl
  have hzip0 : zp.zip tp = (0, 0) :: (zp.zip tp).drop 1 := by
    rw [hzip, hr]; simp [hk0]
  have hpos : ∀ q, q ∈ (mirror 1 zp).zip (mirror tens tp) → 0 < q.1 → q ∈ (zp.zip tp).drop 1 := by
    intro q hq hq0
    rcases (hmz q).1 hq with ⟨p, hp, rfl⟩ | h
    · have := (hpt p (List.mem_of_mem_drop hp)).1
      simp only [] at hq0
      linarith
    · rw [hzip0, List.mem_cons] at h
      rcases h with rfl | h
      · simp at hq0
      · exact h
  refine ⟨_, hk, by omega, ?_, mirror_reverse hhz, ?_, ?_, ?_, ?_, ?_, ?_, ?_⟩
  · change (mirror 1 zp).Pairwise (· ≤ ·)
    have hdz := hzs.drop (i := 1)
    unfold mirror
    rw [List.pairwise_append, List.pairwise_map, List.pairwise_reverse]
    refine ⟨hdz.imp fun h => by linarith, hzs, ?_⟩
    intro a ha b hb
    obtain ⟨x, hx, rfl⟩ := List.mem_map.1 ha
    have h2 := hz0 x (List.mem_of_mem_drop (List.mem_reverse.1 hx))
    have h3 := hz0 b hb
    linarith
  · intro ht; rw [ht]; exact mirror_reverse hht
  · exact (hmz _).2 (Or.inr (by rw [hzip0]; simp))
  · refine (hmz _).2 (Or.inr ?_)
    rw [hzip, List.mem_append, List.mem_map]
    exact Or.inl ⟨fmax, hlast, rfl⟩
  · intro q hq hq0
    exact (hpt q (List.mem_of_mem_drop (hpos q hq hq0))).2
  · intro q hq hq0
    exact (hmz _).2 (Or.inl ⟨q, hpos q hq hq0, rfl⟩)
  · intro q hq hq0
    rcases (hmz q).1 hq with ⟨p, hp, rfl⟩ | h
    · exact ⟨p, (hmz p).2 (Or.inr (List.mem_of_mem_drop hp)), rfl⟩
    · have := (hpt q h).1; linarith
  · intro r0 r1 t0 t1 q hq
    have hb : ∀ q ∈ zp.zip tp, 0 ≤ q.2 ∧ q.2 ≤ fmax := by
      intro q hq
      rcases (hpt q hq).2 with h | h
      · exact ⟨h.1, h.2.1⟩
      · rw [h.1]; constructor <;> nlinarith
    rcases (hmz q).1 hq with ⟨p, hp, rfl⟩ | h
    · have := hb p (List.mem_of_mem_drop hp)
      have h2 := mul_nonneg t0 this.1
      simp only [abs_neg, abs_of_nonneg h2]
      nlinarith
    · have := hb q h
      rw [abs_of_nonneg this.1]; exact this.2

/-- Without shaft friction there is no Kraft curve (the code divides zero by zero). -/
theorem C34_violated_zero_friction (D G0 res tens rf zif : ℝ) (len : ℕ) :
    kraft 0 D G0 res tens rf zif len = none := by
  unfold kraft; simp

/-- The hypotheses are met by default parameters: 17 points requested, 15 returned. -/
example : ∃ c, kraft 50 2 20000 1 1 0.9 10 17 = some c ∧ c.1.length = 15 := by
  obtain ⟨c, h, _⟩ := C34_shape 50 2 20000 1 1 0.9 10 17 (by norm_num) (by norm_num) (by norm_num)
    (by norm_num) (by norm_num) (by norm_num)
  exact ⟨c, h, (C34_violated_length _ _ _ _ _ _ _ 17 c (by norm_num) (by norm_num) h).1⟩

end OpenPile.Props.Kraft

/-
C68: the API t-z curves in Kraft's form.
-/
import Verif.Model.KraftApi
import Verif.Props.Kraft
import Verif.Props.Axial
import Verif.Props.Friction

namespace OpenPile.Props.KraftApi
open OpenPile.Axial OpenPile.Spring OpenPile.Props.Kraft OpenPile.Props.Axial
open OpenPile.Conic (linspace)

/-- The frictions of a curve lie between `-down` and `up`, and both values occur. -/
def Range (t : List ℝ) (down up : ℝ) : Prop := (∀ y ∈ t, -down ≤ y ∧ y ≤ up) ∧ up ∈ t ∧ -down ∈ t

/-- Strength and stiffness of a Kraft curve. -/
theorem kraft_range {f D G0 res tens rf zif : ℝ} (len : ℕ) (hf : 0 < f) (hD : 0 < D) (hG : 0 < G0) (h0 : 0 ≤ rf)
    (h1 : rf < 1) (hz : 1 < zif) (hr : 0 ≤ res) (hr1 : res ≤ 1) (ht : 0 ≤ tens) :
    ∃ c, kraft f D G0 res tens rf zif len = some c ∧ c.1.length = c.2.length ∧ c.1.Pairwise (· ≤ ·) ∧
      (0, 0) ∈ c.1.zip c.2 ∧ Range c.2 (tens * f) f ∧
      ∀ q ∈ c.1.zip c.2, 0 < q.1 → q.2 ≤ 2 * G0 / (D * Real.log zif) * q.1 := by
  have hz' := hz.le
  obtain ⟨c, hc, hl, hs, -, -, h00, hpk, hpos, -, -, -⟩ := C34_shape f D G0 res tens rf zif len hf hD.le hG h0 h1 hz'
  have hk := kraft_eq (D := D) (res := res) (tens := tens) len hf hG h0 h1 hz'
  rw [hc] at hk
  have hc2 : c.2 = mirror tens (risingT f len ++ [res * f, res * f]) := congrArg Prod.snd (Option.some.inj hk)
  have htp : ∀ y ∈ risingT f len ++ [res * f, res * f], 0 ≤ y ∧ y ≤ f := by
    intro y hy
    rcases List.mem_append.1 hy with h | h
    · exact Lateral.linspace_mem_le hf.le h
    · simp only [List.mem_cons, List.not_mem_nil, or_false, or_self] at h
      subst h
      constructor <;> nlinarith
  have hhalf : 2 ≤ roundHalf (kraftLength len) - 2 := by
    have := kraftLength_ge len
    unfold roundHalf; split_ifs <;> omega
  have hlast : f ∈ risingT f len := List.mem_of_getLast? (Lateral.linspace_last 0 f hhalf)
  have hlast' : f ∈ (risingT f len ++ [res * f, res * f]).drop 1 := by
    have hh : (risingT f len).head? = some 0 := Lateral.linspace_head 0 f (by omega)
    cases e : risingT f len with
    | nil => rw [e] at hlast; cases hlast
    | cons a r =>
      rw [e] at hh hlast
      cases hh
      rcases List.mem_cons.1 hlast with h | h
      · exact absurd h hf.ne'
      · simp [h]
  have hlog : 0 < Real.log zif := Real.log_pos hz
  have stiff : ∀ t, 0 ≤ t → t ≤ f → t ≤ 2 * G0 / (D * Real.log zif) * kraftZ f D G0 rf zif t := by
    intro t ht0 htf
    have e1 : 0 ≤ rf * (t / f) := mul_nonneg h0 (div_nonneg ht0 hf.le)
    have e2 : rf * (t / f) < 1 := by
      have : t / f ≤ 1 := (div_le_one hf).2 htf
      nlinarith
    have hl : Real.log zif ≤ Real.log ((zif - rf * (t / f)) / (1 - rf * (t / f))) := by
      apply Real.log_le_log (by linarith)
      rw [le_div_iff₀ (by linarith)]
      nlinarith
    have : 2 * G0 / (D * Real.log zif) * kraftZ f D G0 rf zif t
        = t * (Real.log ((zif - rf * (t / f)) / (1 - rf * (t / f))) / Real.log zif) := by
      unfold kraftZ
      field_simp
    rw [this]
    have h1 : 1 ≤ Real.log ((zif - rf * (t / f)) / (1 - rf * (t / f))) / Real.log zif := (one_le_div hlog).2 hl
    nlinarith
  refine ⟨c, hc, hl, hs, h00, ⟨?_, ?_, ?_⟩, ?_⟩
  · intro y hy
    rw [hc2] at hy
    unfold mirror at hy
    rcases List.mem_append.1 hy with h | h
    · obtain ⟨x, hx, rfl⟩ := List.mem_map.1 h
      have := htp x (List.mem_of_mem_drop (List.mem_reverse.1 hx))
      have := mul_nonneg ht this.1
      constructor <;> nlinarith
    · have := htp y h
      have := mul_nonneg ht hf.le
      constructor <;> linarith
  · rw [hc2]
    unfold mirror
    exact List.mem_append_right _ (List.mem_append_left _ hlast)
  · rw [hc2]
    unfold mirror
    refine List.mem_append_left _ (List.mem_map.2 ⟨f, List.mem_reverse.2 hlast', by ring⟩)
  · intro q hq hq0
    have hC : 0 ≤ 2 * G0 / (D * Real.log zif) := by positivity
    rcases hpos q hq hq0 with ⟨a1, a2, a3⟩ | ⟨a1, a2⟩
    · rw [a3]
      exact stiff q.2 a1 a2
    · have hm := stiff f hf.le le_rfl
      have hle : kraftZ f D G0 rf zif f ≤ q.1 := by rcases a2 with h | h <;> rw [h] <;> linarith
      have h3 := mul_le_mul_of_nonneg_left hle hC
      rw [a1]
      nlinarith

theorem mem_snd {c : List ℝ × List ℝ} (h : c.1.length = c.2.length) {y : ℝ} (hy : y ∈ c.2) :
    ∃ z, (z, y) ∈ c.1.zip c.2 := by
  obtain ⟨i, hi, rfl⟩ := List.getElem_of_mem hy
  refine ⟨c.1[i]'(by omega), ?_⟩
  rw [List.mem_iff_getElem]
  exact ⟨i, by simp; omega, by simp⟩

/-- **C68, clay**, without compilation (missing: the compiled functions, `C68_violated_compiled`). For all positive strengths and stiffnesses, `0 ≤ RF < 1 < zif`, a residual factor between 0 and 1
and every stress (also zero), number of points and random draw: the Kraft curve exists, is sorted, passes through the
origin, has the same strength in compression and tension as the API curve of the same clay, and is nowhere stiffer
than Randolph and Wroth's elastic solution `2 G0 / (D ln zif)`. -/
theorem C68_clay_partial (sig Su D G0 al res tens rf zif : ℝ) (len len' : ℕ) (draws : ℕ → ℝ) (argsort : List ℝ → List ℕ)
    (hrand : IsRandom draws) (hsort : ∀ z, IsArgsort z (argsort z)) (hs : 0 ≤ sig) (hu : 0 < Su) (ha : 0 < al)
    (hD : 0 < D) (hG : 0 < G0) (h0 : 0 ≤ rf) (h1 : rf < 1) (hz : 1 < zif) (hr : 0 ≤ res) (hr1 : res ≤ 1)
    (ht : 0 ≤ tens) :
    ∃ f c b, 0 < f ∧ fmaxClay sig Su al = some f ∧ apiClayKraft false sig Su D G0 al res tens rf zif len = some c ∧
      tzApiClay sig Su D al res tens len' draws argsort = some b ∧
      Range c.2 (tens * f) f ∧ Range b.2 (tens * f) f ∧
      c.1.length = c.2.length ∧ c.1.Pairwise (· ≤ ·) ∧ (0, 0) ∈ c.1.zip c.2 ∧
      ∀ q ∈ c.1.zip c.2, 0 < q.1 → q.2 ≤ 2 * G0 / (D * Real.log zif) * q.1 := by
  have hp : 0 < psi sig Su := by
    unfold psi
    split_ifs with h
    · positivity
    · exact div_pos hu (lt_of_le_of_ne hs (Ne.symm h))
  have hfe := Friction.fmaxClay_eq (al := al) hp
  have hf : 0 < min (Friction.adhesion (psi sig Su)) al * Su :=
    mul_pos (lt_min (Friction.adhesion_pos hp) ha) hu
  generalize min (Friction.adhesion (psi sig Su)) al * Su = f at hfe hf
  obtain ⟨c, hc, hl, hpw, h00, hR, hst⟩ := kraft_range (D := D) (G0 := G0) (res := res) (tens := tens) (rf := rf)
    (zif := zif) len hf hD hG h0 h1 hz hr hr1 ht
  obtain ⟨b, hb, hb1, hb2, hb3, hb4, -⟩ := C33_tz_clay_bounds sig Su D al res tens f len' draws argsort hrand hsort hD
    hfe hf.le hr hr1 ht
  obtain ⟨b', hb', hcu, -⟩ := C33_tz_clay sig Su D al res tens f len' draws argsort hrand hsort hD hfe
  rw [hb] at hb'
  cases hb'
  refine ⟨f, c, b, hf, hfe, by simp [apiClayKraft, call, hfe, hc], hb, hR, ⟨?_, ?_, ?_⟩, hl, hpw, h00, hst⟩
  · intro y hy
    obtain ⟨x, hx⟩ := mem_snd (by rw [hcu.disp, hcu.force]) hy
    exact hb1 _ hx
  · exact (List.of_mem_zip hb3).2
  · exact (List.of_mem_zip hb4).2

/-- **C68, sand**, without compilation. The same for sand below ground level with an interface friction angle between 0 and 90 degrees. -/
theorem C68_sand_partial (sig delta D G0 k res tens rf zif : ℝ) (len len' : ℕ) (draws : ℕ → ℝ)
    (argsort : List ℝ → List ℕ) (hrand : IsRandom draws) (hsort : ∀ z, IsArgsort z (argsort z)) (hs : 0 < sig)
    (hd : 0 < delta) (hd1 : delta < 90) (hk : 0 < k) (hD : 0 < D) (hG : 0 < G0) (h0 : 0 ≤ rf) (h1 : rf < 1)
    (hz : 1 < zif) (hr : 0 ≤ res) (hr1 : res ≤ 1) (ht : 0 ≤ tens) :
    ∃ f c b, 0 < f ∧ fmaxSand sig delta k = some f ∧ apiSandKraft false sig delta D G0 k res tens rf zif len = some c ∧
      tzApiSand sig delta k tens len' draws argsort = some b ∧
      Range c.2 (tens * f) f ∧ Range b.2 (tens * f) f ∧
      c.1.length = c.2.length ∧ c.1.Pairwise (· ≤ ·) ∧ (0, 0) ∈ c.1.zip c.2 ∧
      ∀ q ∈ c.1.zip c.2, 0 < q.1 → q.2 ≤ 2 * G0 / (D * Real.log zif) * q.1 := by
  obtain ⟨f, hfe⟩ := Friction.C35_sand_total sig delta k
  have hf : 0 < f := by
    obtain ⟨l, -, hl, -, rfl⟩ := Friction.fmaxSand_eq hfe
    have : 0 < Real.tan (delta * Real.pi / 180) := by
      apply Real.tan_pos_of_pos_of_lt_pi_div_two
      · have := Real.pi_pos; positivity
      · have := Real.pi_pos; nlinarith
    exact lt_min (by linarith) (by positivity)
  obtain ⟨c, hc, hl, hpw, h00, hR, hst⟩ := kraft_range (D := D) (G0 := G0) (res := res) (tens := tens) (rf := rf)
    (zif := zif) len hf hD hG h0 h1 hz hr hr1 ht
  obtain ⟨b, hb, hcu, -, -, hbb⟩ := C33_tz_sand sig delta k tens f len' draws argsort hrand hsort hfe
  obtain ⟨b', hb1, -, hb3, -, -⟩ := C33_backbone_sand tens len' draws argsort hrand hsort
  have hbe : b = scaleCurve 1 f b' := by
    have : tzApiSand sig delta k tens len' draws argsort = some (scaleCurve 1 f b') := by simp [tzApiSand, hfe, hb1]
    rw [hb] at this
    exact Option.some.inj this
  have hm : ∀ x y, (x, y) ∈ b'.1.zip b'.2 → y * f ∈ b.2 := by
    intro x y h
    rw [hbe]
    exact List.mem_map.2 ⟨y, (List.of_mem_zip h).2, rfl⟩
  refine ⟨f, c, b, hf, hfe, by simp [apiSandKraft, call, hfe, hc], hb, hR, ⟨?_, ?_, ?_⟩, hl, hpw, h00, hst⟩
  · intro y hy
    obtain ⟨x, hx⟩ := mem_snd (by rw [hcu.disp, hcu.force]) hy
    exact (hbb hf.le ht).1 _ hx
  · have := hm 0.0254 1 (hb3 _ (by simp [sandNodes]))
    rwa [one_mul] at this
  · have := hm (-0.0254) (-tens) (hb3 _ (by simp [sandNodes]))
    rwa [neg_mul] at this

/-- **C68 is violated at ground level in sand.** Where the vertical stress is zero the API curve is a line without
friction, while Kraft's form divides zero by zero: no curve. -/
theorem C68_violated_sand_surface (jit : Bool) (delta D G0 k res tens rf zif : ℝ) (len : ℕ) :
    apiSandKraft jit 0 delta D G0 k res tens rf zif len = none := by
  obtain ⟨f, hfe⟩ := Friction.C35_sand_total 0 delta k
  have : f = 0 := by
    obtain ⟨l, -, hl, -, rfl⟩ := Friction.fmaxSand_eq hfe
    simp
    linarith
  subst this
  cases jit <;> simp [apiSandKraft, call, hfe, C34_violated_zero_friction]

/-- **C68 is violated wherever numba compiles.** Both functions are compiled but call `kraft_modification`, which is
not: whatever the arguments, the call raises and there is no curve.  The API curves of the same soil exist
(`C68_clay_partial`). -/
theorem C68_violated_compiled (sig x D G0 y res tens rf zif : ℝ) (len : ℕ) :
    apiClayKraft true sig x D G0 y res tens rf zif len = none ∧
      apiSandKraft true sig x D G0 y res tens rf zif len = none := by
  constructor
  · simp [apiClayKraft, call]
  · simp [apiSandKraft, call]

/-- The hypotheses of C68 are met: clay with the default options of `api_clay_kraft` at ground level. -/
example : ∃ f c b, 0 < f ∧ fmaxClay 0 50 1 = some f ∧ apiClayKraft false 0 50 2 10000 1 (9 / 10) 1 (9 / 10) 10 15 = some c ∧
    tzApiClay 0 50 2 1 (9 / 10) 1 15 (fun _ => 1 / 2) stableArgsort = some b ∧ Range c.2 (1 * f) f ∧
    Range b.2 (1 * f) f := by
  obtain ⟨f, c, b, h1, h2, h3, h4, h5, h6, -⟩ := C68_clay_partial 0 50 2 10000 1 (9 / 10) 1 (9 / 10) 10 15 15 (fun _ => 1 / 2)
    stableArgsort (fun _ => by norm_num) stableArgsort_spec le_rfl (by norm_num) (by norm_num) (by norm_num)
    (by norm_num) (by norm_num) (by norm_num) (by norm_num) (by norm_num) (by norm_num) (by norm_num)
  exact ⟨f, c, b, h1, h2, h3, h4, h5, h6⟩

/-- The same for sand. -/
example : ∃ f c b, 0 < f ∧ fmaxSand 100 25 (8 / 10) = some f ∧
    apiSandKraft false 100 25 2 10000 (8 / 10) 1 (1 / 2) (9 / 10) 10 15 = some c ∧
    tzApiSand 100 25 (8 / 10) (1 / 2) 15 (fun _ => 1 / 2) stableArgsort = some b ∧ Range c.2 (1 / 2 * f) f ∧
    Range b.2 (1 / 2 * f) f := by
  obtain ⟨f, c, b, h1, h2, h3, h4, h5, h6, -⟩ := C68_sand_partial 100 25 2 10000 (8 / 10) 1 (1 / 2) (9 / 10) 10 15 15
    (fun _ => 1 / 2) stableArgsort (fun _ => by norm_num) stableArgsort_spec (by norm_num) (by norm_num) (by norm_num)
    (by norm_num) (by norm_num) (by norm_num) (by norm_num) (by norm_num) (by norm_num) (by norm_num) (by norm_num)
    (by norm_num)
  exact ⟨f, c, b, h1, h2, h3, h4, h5, h6⟩

end OpenPile.Props.KraftApi

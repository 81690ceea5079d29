/-
C90: the result of an analysis does not depend on the random numbers drawn while springs are created.
-/
import Verif.Props.Capacity
import Verif.Model.SoilAnalysis
import Verif.Lemmas.Axial
import Verif.Props.Creation
import Mathlib.Analysis.Convex.SpecificFunctions.Pow

namespace OpenPile.Props.Reproducible
open OpenPile.Assemble OpenPile.Axial OpenPile.Capacity OpenPile.SoilModel OpenPile.Spring OpenPile.Winkler
open OpenPile.SoilAnalysis OpenPile.Props.Capacity OpenPile.Lateral

/-! ### tables with the same effect -/

/-- Two tables that resist alike: the same resistances in the same order, and the same stiffness at every
displacement. -/
def Alike (c c' : Curve) : Prop :=
  c.map Prod.snd = c'.map Prod.snd ∧ ∀ kind u, pyStiffness c kind u = pyStiffness c' kind u

theorem Alike.refl (c : Curve) : Alike c c := ⟨rfl, fun _ _ => rfl⟩

theorem curveStiffness_congr {c c' : Curve} (x y : ℝ × ℝ) (R R' : Curve) (hc : c = x :: y :: R) (hc' : c' = x :: y :: R')
    (h : ∀ d, resistance c d = resistance c' d) (kind : Kind) (u : ℝ) : curveStiffness c kind u = curveStiffness c' kind u := by
  subst hc hc'
  obtain ⟨x0, p0⟩ := x
  obtain ⟨x1, p1⟩ := y
  simp only [curveStiffness, h]

theorem resistance_congr {c c' : Curve} (hm : maxDisp c = maxDisp c') (hl : c.getLast?.map Prod.snd = c'.getLast?.map Prod.snd)
    (hi : ∀ x, interp x c = interp x c') (d : ℝ) : resistance c d = resistance c' d := by
  unfold resistance
  rw [hm]
  cases maxDisp c' with
  | none => rfl
  | some m =>
    simp only [Option.bind_eq_bind, Option.bind_some]
    by_cases h : d > m
    · simp only [if_pos h]
      cases h1 : c.getLast? <;> cases h2 : c'.getLast? <;> rw [h1, h2] at hl <;> simp_all
    · simp only [if_neg h, hi]

theorem scale_append (s t : ℝ) (l l' : Curve) : Conic.scale s t (l ++ l') = Conic.scale s t l ++ Conic.scale s t l' := by
  simp [Conic.scale]

theorem scale_maxDisp {L : Curve} {m ym pm : ℝ} (h0 : (0 : ℝ) ∈ L.map Prod.fst) (hm : m ∈ L.map Prod.fst)
    (hb : ∀ q ∈ L, 0 ≤ q.1 ∧ q.1 ≤ m) : maxDisp (Conic.scale ym pm L) = some (max 0 (m * ym)) := by
  have hm0 : 0 ≤ m := by
    obtain ⟨q, hq, rfl⟩ := List.mem_map.1 hm
    exact (hb q hq).1
  have e : (Conic.scale ym pm L).map Prod.fst = (L.map Prod.fst).map (· * ym) := by
    simp [Conic.scale, Function.comp_def]
  unfold maxDisp
  rw [e, List.max?_eq_some_iff]
  rcases le_total 0 ym with h | h
  · rw [max_eq_right (mul_nonneg hm0 h)]
    refine ⟨List.mem_map.2 ⟨m, hm, rfl⟩, ?_⟩
    intro b hbm
    obtain ⟨y, hy, rfl⟩ := List.mem_map.1 hbm
    obtain ⟨q, hq, rfl⟩ := List.mem_map.1 hy
    exact mul_le_mul_of_nonneg_right (hb q hq).2 h
  · rw [max_eq_left (mul_nonpos_of_nonneg_of_nonpos hm0 h)]
    refine ⟨List.mem_map.2 ⟨0, h0, by simp⟩, ?_⟩
    intro b hbm
    obtain ⟨y, hy, rfl⟩ := List.mem_map.1 hbm
    obtain ⟨q, hq, rfl⟩ := List.mem_map.1 hy
    exact mul_nonpos_of_nonneg_of_nonpos (hb q hq).1 h

theorem scale_sum {L : Curve} {m ym pm : ℝ} (hm : m ∈ L.map Prod.fst) (hm0 : 0 < m) (hb : ∀ q ∈ L, 0 ≤ q.1) :
    ((Conic.scale ym pm L).map Prod.fst).sum = 0 ↔ ym = 0 := by
  have e : ((Conic.scale ym pm L).map Prod.fst).sum = (L.map Prod.fst).sum * ym := by
    have : (Conic.scale ym pm L).map Prod.fst = L.map (fun q => q.1 * ym) := by simp [Conic.scale, Function.comp_def]
    rw [this, List.sum_map_mul_right]
  have hpos : 0 < (L.map Prod.fst).sum := by
    refine lt_of_lt_of_le hm0 (List.single_le_sum ?_ m hm)
    intro x hx
    obtain ⟨q, hq, rfl⟩ := List.mem_map.1 hx
    exact hb q hq
  rw [e, mul_eq_zero]
  exact ⟨fun h => h.resolve_left hpos.ne', Or.inr⟩

/-- Two tables that differ only along a plateau at their end, with the same last displacement. -/
theorem alike_plateau {x y : ℝ × ℝ} {B R R' : Curve} {a P m ym pm : ℝ} (hR : ∀ q ∈ R, q.2 = P) (hR' : ∀ q ∈ R', q.2 = P)
    (hlen : R.length = R'.length) (hx : x.1 = 0) (hm0 : 0 < m) (hm : m ∈ R.map Prod.fst) (hm' : m ∈ R'.map Prod.fst)
    (hb : ∀ q ∈ x :: y :: B ++ (a, P) :: R, 0 ≤ q.1 ∧ q.1 ≤ m) (hb' : ∀ q ∈ x :: y :: B ++ (a, P) :: R', 0 ≤ q.1 ∧ q.1 ≤ m) :
    Alike (Conic.scale ym pm (x :: y :: B ++ (a, P) :: R)) (Conic.scale ym pm (x :: y :: B ++ (a, P) :: R')) := by
  have snd : ∀ R : Curve, (∀ q ∈ R, q.2 = P) → R.map Prod.snd = List.replicate R.length P := by
    intro R h
    exact List.eq_replicate_iff.2 ⟨by simp, fun p hp => by
      obtain ⟨q, hq, rfl⟩ := List.mem_map.1 hp
      exact h q hq⟩
  have hsnd : (Conic.scale ym pm (x :: y :: B ++ (a, P) :: R)).map Prod.snd
      = (Conic.scale ym pm (x :: y :: B ++ (a, P) :: R')).map Prod.snd := by
    have e : ∀ L : Curve, (Conic.scale ym pm L).map Prod.snd = (L.map Prod.snd).map (· * pm) := by
      intro L; simp [Conic.scale, Function.comp_def]
    rw [e, e]
    congr 1
    simp only [List.map_append, List.map_cons, snd R hR, snd R' hR', hlen]
  refine ⟨hsnd, ?_⟩
  have hmem : ∀ R : Curve, m ∈ R.map Prod.fst → m ∈ (x :: y :: B ++ (a, P) :: R).map Prod.fst := by
    intro R h
    simp only [List.map_append, List.map_cons, List.mem_append, List.mem_cons]
    exact Or.inr (Or.inr h)
  have h0 : ∀ R : Curve, (0 : ℝ) ∈ (x :: y :: B ++ (a, P) :: R).map Prod.fst := by
    intro R
    simp only [List.map_append, List.map_cons, List.mem_append, List.mem_cons]
    exact Or.inl (Or.inl hx.symm)
  have hmax : maxDisp (Conic.scale ym pm (x :: y :: B ++ (a, P) :: R))
      = maxDisp (Conic.scale ym pm (x :: y :: B ++ (a, P) :: R')) := by
    rw [scale_maxDisp (h0 R) (hmem R hm) hb, scale_maxDisp (h0 R') (hmem R' hm') hb']
  have hlast : (Conic.scale ym pm (x :: y :: B ++ (a, P) :: R)).getLast?.map Prod.snd
      = (Conic.scale ym pm (x :: y :: B ++ (a, P) :: R')).getLast?.map Prod.snd := by
    rw [← List.getLast?_map, ← List.getLast?_map, hsnd]
  have hint : ∀ z, interp z (Conic.scale ym pm (x :: y :: B ++ (a, P) :: R))
      = interp z (Conic.scale ym pm (x :: y :: B ++ (a, P) :: R')) := by
    intro z
    have e : ∀ R : Curve, (∀ q ∈ R, q.2 = P) → interp z (Conic.scale ym pm (x :: y :: B ++ (a, P) :: R))
        = interp z (Conic.scale ym pm (x :: y :: B) ++ [(a * ym, P * pm)]) := by
      intro R h
      rw [scale_append]
      refine interp_flat_tail z (a * ym) (P * pm) _ ?_ (Conic.scale ym pm (x :: y :: B))
      intro q hq
      obtain ⟨r, hr, rfl⟩ := List.mem_map.1 hq
      simp only [h r hr]
    rw [e R hR, e R' hR']
  intro kind u
  unfold pyStiffness
  have hs := scale_sum (ym := ym) (pm := pm) (hmem R hm) hm0 (fun q hq => (hb q hq).1)
  have hs' := scale_sum (ym := ym) (pm := pm) (hmem R' hm') hm0 (fun q hq => (hb' q hq).1)
  by_cases h : ym = 0
  · rw [if_pos (hs.2 h), if_pos (hs'.2 h)]
  · rw [if_neg (fun e => h (hs.1 e)), if_neg (fun e => h (hs'.1 e))]
    exact curveStiffness_congr (x.1 * ym, x.2 * pm) (y.1 * ym, y.2 * pm) _ _ rfl rfl (resistance_congr hmax hlast hint) kind u

/-! ### the API clay curve -/

/-- The plateau of the API clay curve. -/
theorem matlockP_plateau {kind : Loading} {pmax X Xr q : ℝ} (hq : 0 < q) (hXr : 0 < Xr) :
    ∃ P, ∀ y, 15 * q ≤ y → matlockP kind pmax X Xr q y = some P := by
  cases kind with
  | static => exact ⟨pmax, fun y hy => by simp only [matlockP]; rw [if_pos (by linarith)]⟩
  | cyclic =>
    by_cases hd : X ≤ Xr
    · refine ⟨7185 / 10000 * pmax * X / Xr, fun y hy => ?_⟩
      simp only [matlockP]
      rw [if_pos hd]
      by_cases h : y > 15 * q
      · rw [if_pos h, if_neg hXr.ne']
      · have e : y = 15 * q := le_antisymm (not_lt.1 h) hy
        subst e
        rw [if_neg h, if_pos (by linarith), if_neg (by rintro (h | h) <;> linarith)]
        congr 1
        field_simp
        ring
    · refine ⟨7185 / 10000 * pmax, fun y hy => ?_⟩
      simp only [matlockP]
      rw [if_neg hd, if_pos (by linarith)]

theorem transition_pos {sig X Su D J Xr : ℝ} (hD : 0 < D) (h : transition sig X Su D J = some Xr) : 0 < Xr := by
  unfold transition at h
  split_ifs at h <;> simp only [Option.some.injEq] at h <;> subst h
  · positivity
  · exact lt_max_of_lt_right (by positivity)

theorem matlockP_some {kind : Loading} {pmax X Xr q y : ℝ} (hq : 0 < q) (hXr : 0 < Xr) (hy : 0 ≤ y) :
    ∃ p, matlockP kind pmax X Xr q y = some p := by
  have hc : cubic pmax q y = some (1 / 2 * pmax * (y / q) ^ (33 / 100 : ℝ)) := by
    unfold cubic
    rw [if_neg (by rintro (h | h); exacts [hq.ne' h, absurd (div_nonneg hy hq.le) (not_le.2 h)])]
  have h0 : ¬ (Xr = 0 ∨ q = 0) := by rintro (h | h) <;> linarith
  cases kind <;> simp only [matlockP, hc, if_neg h0, if_neg hXr.ne'] <;> split_ifs <;> exact ⟨_, rfl⟩

/-- `api_clay` with the default `ymax`: seven points that do not depend on the draws, then the plateau up to 16 y50. -/
theorem apiClay_form {sig X Su eps D J : ℝ} {kind : Loading} {Xr : ℝ} (he : 0 < eps) (hD : 0 < D)
    (hXr : transition sig X Su D J = some Xr) :
    ∃ (y : ℝ × ℝ) (B : Curve) (P : ℝ), ∀ draws : List ℝ, OpenPile.Lateral.Draws 15 draws → ∃ R : Curve,
      apiClay sig X Su eps D J kind 0 15 draws = some ((0, 0) :: y :: B ++ (15 * y50 eps D, P) :: R) ∧
      (∀ q ∈ R, q.2 = P) ∧ R.length = 8 ∧ 16 * y50 eps D ∈ R.map Prod.fst ∧
      (∀ q ∈ (0, 0) :: y :: B ++ (15 * y50 eps D, P) :: R, 0 ≤ q.1 ∧ q.1 ≤ 16 * y50 eps D) ∧
      (R.map Prod.fst).Perm (16 * y50 eps D :: (draws.take 7).map (fun r => 15 * y50 eps D + r * y50 eps D)) := by
  have hq : 0 < y50 eps D := by unfold y50; positivity
  have hXp := transition_pos hD hXr
  obtain ⟨P, hP⟩ := matlockP_plateau (kind := kind) (pmax := pmaxClay sig X Su D J) (X := X) hq hXp
  set q := y50 eps D with hqdef
  set pm := pmaxClay sig X Su D J with hpm
  choose f hf using fun y : ℝ => fun h : 0 ≤ y => matlockP_some (kind := kind) (pmax := pm) (X := X) hq hXp h
  let g : ℝ → ℝ := fun y => if h : 0 ≤ y then f y h else 0
  have hg : ∀ y, 0 ≤ y → matlockP kind pm X Xr q y = some (g y) := by
    intro y h
    simp only [g, dif_pos h]
    exact hf y h
  have hg0 : g 0 = 0 := by
    have h := hg 0 le_rfl
    have hc : cubic pm q 0 = some 0 := by
      unfold cubic
      rw [if_neg (by rintro (h | h); exacts [hq.ne' h, by simp at h])]
      simp
    have h2 : matlockP kind pm X Xr q 0 = some 0 := by
      have h8 : ¬ (0 > 8 * q) := by linarith
      have h15 : ¬ (0 > 15 * q) := by linarith
      have h3 : ¬ (0 > 3 * q) := by linarith
      cases kind <;> simp only [matlockP, hc, if_neg h8, if_neg h15, if_neg h3, ite_self]
    rw [h2] at h
    exact (Option.some.inj h).symm
  refine ⟨(1 / 10 * q, g (1 / 10 * q)), [(3 / 10 * q, g (3 / 10 * q)), (1 * q, g (1 * q)), (3 * q, g (3 * q)), (8 * q, g (8 * q))],
    P, ?_⟩
  intro draws hd
  have hadd : ∀ z ∈ 16 * q :: (draws.take 7).map (fun r => 15 * q + r * q), 15 * q ≤ z ∧ z ≤ 16 * q := by
    intro z hz
    rcases List.mem_cons.1 hz with rfl | hz
    · constructor <;> linarith
    · obtain ⟨r, hr, rfl⟩ := List.mem_map.1 hz
      have := hd.range r (List.mem_of_mem_take hr)
      constructor <;> nlinarith
  set C := 16 * q :: (draws.take 7).map (fun r => 15 * q + r * q) with hC
  have hperm := Py.sortedBy_perm id C
  have hys : yVector [0, 1 / 10 * q, 3 / 10 * q, 1 * q, 3 * q, 8 * q, 15 * q, ymaxClay q 0] (ymaxClay q 0) (max 8 15)
      (fun r => 15 * q + r * (ymaxClay q 0 - 15 * q)) draws
      = [0, 1 / 10 * q, 3 / 10 * q, 1 * q, 3 * q, 8 * q, 15 * q] ++ Py.sortedBy id C := by
    have hym : ymaxClay q 0 = 16 * q := by simp [ymaxClay]
    unfold yVector
    rw [hym]
    have hk : [0, 1 / 10 * q, 3 / 10 * q, 1 * q, 3 * q, 8 * q, 15 * q, 16 * q].filter (fun y => decide (y ≤ 16 * q))
        = [0, 1 / 10 * q, 3 / 10 * q, 1 * q, 3 * q, 8 * q, 15 * q, 16 * q] := by
      rw [List.filter_eq_self]
      simp only [List.mem_cons, List.not_mem_nil, or_false, decide_eq_true_eq]
      rintro a (rfl | rfl | rfl | rfl | rfl | rfl | rfl | rfl) <;> linarith
    simp only [hk]
    rw [← sort_append (A := [0, 1 / 10 * q, 3 / 10 * q, 1 * q, 3 * q, 8 * q, 15 * q]) (B := C)]
    · congr 1
      simp only [hC, List.length_cons, List.length_nil, List.cons_append, List.nil_append]
      have e : ∀ r : ℝ, 15 * q + r * (16 * q - 15 * q) = 15 * q + r * q := fun r => by ring
      simp only [e]
      norm_num
    · simp only [List.pairwise_cons, List.mem_cons, List.not_mem_nil, or_false, List.Pairwise.nil, and_true, forall_eq_or_imp,
        forall_eq, IsEmpty.forall_iff, implies_true]
      refine ⟨⟨?_, ?_, ?_, ?_, ?_, ?_⟩, ⟨?_, ?_, ?_, ?_, ?_⟩, ⟨?_, ?_, ?_, ?_⟩, ⟨?_, ?_, ?_⟩, ⟨?_, ?_⟩, ?_⟩ <;> linarith
    · intro a ha b hb
      have hb := (hadd b hb).1
      simp only [List.mem_cons, List.not_mem_nil, or_false] at ha
      rcases ha with rfl | rfl | rfl | rfl | rfl | rfl | rfl <;> linarith
  refine ⟨(Py.sortedBy id C).map (fun z => (z, P)), ?_, ?_, ?_, ?_, ?_, ?_⟩
  · unfold apiClay
    rw [hXr]
    simp only [Option.bind_eq_bind, Option.bind_some, ← hqdef, ← hpm]
    rw [hys]
    have hall : ∀ z ∈ [0, 1 / 10 * q, 3 / 10 * q, 1 * q, 3 * q, 8 * q, 15 * q] ++ Py.sortedBy id C,
        (matlockP kind pm X Xr q z).map (fun p => (z, p)) = some (z, g z) := by
      intro z hz
      have h0 : 0 ≤ z := by
        rcases List.mem_append.1 hz with h | h
        · simp only [List.mem_cons, List.not_mem_nil, or_false] at h
          rcases h with rfl | rfl | rfl | rfl | rfl | rfl | rfl <;> positivity
        · have := (hadd z (hperm.subset h)).1
          linarith
      rw [hg z h0]
      rfl
    rw [OpenPile.Axial.mapM_some_map _ _ _ hall]
    have hgP : ∀ z, 15 * q ≤ z → g z = P := by
      intro z hz
      have h1 := hP z hz
      rw [hg z (by linarith)] at h1
      exact Option.some.inj h1
    simp only [List.map_cons, List.cons_append, List.nil_append, hg0, hgP (15 * q) le_rfl]
    congr 1
    simp only [List.cons.injEq, true_and]
    exact List.map_congr_left (fun z hz => by rw [hgP z (hadd z (hperm.subset hz)).1])
  · intro r hr
    obtain ⟨z, -, rfl⟩ := List.mem_map.1 hr
    rfl
  · rw [List.length_map, hperm.length_eq, hC]
    have := hd.enough
    simp
    omega
  · rw [List.map_map]
    exact List.mem_map.2 ⟨16 * q, hperm.symm.subset (by simp [hC]), rfl⟩
  · intro r hr
    simp only [List.cons_append, List.nil_append, List.mem_cons] at hr
    rcases hr with rfl | rfl | rfl | rfl | rfl | rfl | rfl | hr
    · exact ⟨le_rfl, by simp only; linarith⟩
    all_goals first
      | (obtain ⟨z, hz, rfl⟩ := List.mem_map.1 hr
         have := hadd z (hperm.subset hz)
         exact ⟨by simp only; linarith, this.2⟩)
      | (constructor <;> simp only <;> linarith)
  · rw [List.map_map]
    simpa [Function.comp_def] using hperm

/-! ### axial curves -/

theorem complete_full {z t : List ℝ} {len : ℕ} {add : ℝ → ℝ} {tail : ℝ} {draws : ℕ → ℝ} {argsort : List ℝ → List ℕ}
    (hs : ∀ z, IsArgsort z (argsort z)) (hz : z.Pairwise (· < ·)) (ht : t.length = z.length) (hl : len ≤ z.length) :
    complete z t len add tail draws argsort = some (z, t) := by
  unfold complete
  have h0 : len - z.length = 0 := by omega
  have hsort : Py.sortedBy id z = z :=
    ((Py.sortedBy_perm id z).eq_of_pairwise (fun a b _ _ h h' => le_antisymm h h') (Py.sortedBy_pairwise id z)
      (hz.imp le_of_lt))
  simp only [h0, List.range_zero, List.map_nil, List.append_nil, List.replicate_zero, hsort]
  rw [gather_argsort ht (hz.imp le_of_lt) (hs z)]
  · rfl
  · intro i j hi hj hij
    have : i = j := by
      rw [List.getD_eq_getElem _ _ hi, List.getD_eq_getElem _ _ hj] at hij
      rcases lt_trichotomy i j with h | h | h
      · exact absurd hij (List.pairwise_iff_getElem.1 hz i j hi hj h).ne
      · exact h
      · exact absurd hij.symm (List.pairwise_iff_getElem.1 hz j i hj hi h).ne
    rw [this]

variable {draws draws' : ℕ → ℝ} {argsort argsort' : List ℝ → List ℕ}

theorem backboneClay_same (res tens : ℝ) (hs : ∀ z, IsArgsort z (argsort z)) (hs' : ∀ z, IsArgsort z (argsort' z)) :
    backboneClay res tens 15 draws argsort = backboneClay res tens 15 draws' argsort' := by
  unfold backboneClay
  rw [complete_full hs, complete_full hs'] <;> simp [mirror] <;> norm_num

theorem backboneSand_same (tens : ℝ) (hs : ∀ z, IsArgsort z (argsort z)) (hs' : ∀ z, IsArgsort z (argsort' z)) :
    backboneSand tens 15 draws argsort = backboneSand tens 15 draws' argsort' := by
  unfold backboneSand
  rw [complete_full hs, complete_full hs'] <;> simp [mirror] <;> norm_num

theorem backboneTip_same (hs : ∀ z, IsArgsort z (argsort z)) (hs' : ∀ z, IsArgsort z (argsort' z)) :
    backboneTip 15 draws argsort = backboneTip 15 draws' argsort' := by
  unfold backboneTip
  rw [complete_full hs, complete_full hs'] <;> simp <;> norm_num

theorem tzApiClay_same (sig Su D al res tens : ℝ) (hs : ∀ z, IsArgsort z (argsort z)) (hs' : ∀ z, IsArgsort z (argsort' z)) :
    tzApiClay sig Su D al res tens 15 draws argsort = tzApiClay sig Su D al res tens 15 draws' argsort' := by
  unfold tzApiClay
  rw [max_self, backboneClay_same res tens hs hs']

theorem tzApiSand_same (sig d k tens : ℝ) (hs : ∀ z, IsArgsort z (argsort z)) (hs' : ∀ z, IsArgsort z (argsort' z)) :
    tzApiSand sig d k tens 15 draws argsort = tzApiSand sig d k tens 15 draws' argsort' := by
  unfold tzApiSand
  rw [backboneSand_same tens hs hs']

theorem tzNode_same {S : Input} {l : SoilLayer} {m : AxialModel} {r : Row} {b : Bool} {e e' : Env}
    (hs : ∀ z, IsArgsort z (e.argsort z)) (hs' : ∀ z, IsArgsort z (e'.argsort z)) :
    tzNode S l m r b e = tzNode S l m r b e' := by
  unfold tzNode
  cases m with
  | clay m => simp only [ClayAxial.tzSpring, tzApiClay_same (draws := e.tzDraws) (draws' := e'.tzDraws) _ _ _ _ _ _ hs hs']
  | sand m => simp only [SandAxial.tzSpring, tzApiSand_same (draws := e.tzDraws) (draws' := e'.tzDraws) _ _ _ _ hs hs']

theorem qzTip_same {S : Input} {l : SoilLayer} {m : AxialModel} {r : Row} {e e' : Env}
    (hs : ∀ z, IsArgsort z (e.argsort z)) (hs' : ∀ z, IsArgsort z (e'.argsort z)) :
    qzTip S l m r e = qzTip S l m r e' := by
  unfold qzTip
  cases m with
  | clay m => simp only [ClayAxial.qzSpring, qzApiClay, backboneTip_same (draws := e.tzDraws) (draws' := e'.tzDraws) hs hs']
  | sand m => simp only [SandAxial.qzSpring, qzApiSand, backboneTip_same (draws := e.tzDraws) (draws' := e'.tzDraws) hs hs']

/-! ### nodes -/

theorem mtNode_same {S : Input} {l : SoilLayer} {m : SoilModel.Model} {r : Row} {b : Bool} {e e' : Env}
    (hs : ∀ z, IsArgsort z (e.argsort z)) (hs' : ∀ z, IsArgsort z (e'.argsort z)) :
    mtNode S l m r b e = mtNode S l m r b e' := by
  unfold mtNode
  cases hA : nodeArgs S l r b with
  | none => rfl
  | some a =>
    have hlen : a.len = 15 := by
      unfold nodeArgs at hA
      simp only [Option.bind_eq_bind, Option.bind_eq_some_iff, Option.pure_def, Option.some.injEq] at hA
      obtain ⟨_, _, _, _, rfl⟩ := hA
      rfl
    simp only [Option.bind_eq_bind, Option.bind_some]
    have : m.mt a e = m.mt a e' := by
      cases m with
      | apiSand s =>
        simp only [SoilModel.Model.mt, ApiSand.mt, hlen,
          tzApiSand_same (draws := e.tzDraws) (draws' := e'.tzDraws) _ _ _ _ hs hs']
      | matlock s =>
        simp only [SoilModel.Model.mt, MatlockClay.mt, hlen,
          tzApiClay_same (draws := e.tzDraws) (draws' := e'.tzDraws) _ _ _ _ _ _ hs hs']
      | _ => rfl
    rw [this]

/-- The lateral models whose springs do not depend on the draws: all but `Modified_Matlock_clay`, with positive eps50. -/
def Steady (m : SoilModel.Model) : Prop :=
  ∀ s, m = .matlock s → s.curve = .api ∧ ∀ depth height eps, Params.layered s.eps50 depth height = some eps → 0 < eps

theorem store_rel {c c' : Curve} (h : Alike c c') : Option.Rel Alike (store c) (store c') := by
  unfold store
  have hl : c.length = c'.length := by simpa using congrArg List.length h.1
  by_cases h15 : c.length = 15
  · rw [if_pos h15, if_pos (hl ▸ h15)]
    exact .some h
  · rw [if_neg h15, if_neg (hl ▸ h15)]
    exact .none

theorem rel_refl (o : Option Curve) : Option.Rel Alike o o := by
  cases o with
  | none => exact .none
  | some c => exact .some (Alike.refl c)

theorem pyNode_rel {S : Input} {l : SoilLayer} {m : SoilModel.Model} {r : Row} {b : Bool} {e e' : Env} (hm : Steady m)
    (hw : ∀ s, r.sec = some s → 0 < s.width) (hd : OpenPile.Lateral.Draws 15 e.draws) (hd' : OpenPile.Lateral.Draws 15 e'.draws) :
    Option.Rel Alike (pyNode S l m r b e) (pyNode S l m r b e') := by
  unfold pyNode
  cases hA : nodeArgs S l r b with
  | none => exact .none
  | some a =>
    have hlen : a.len = 15 ∧ a.ymax = 0 ∧ 0 < a.D := by
      unfold nodeArgs at hA
      simp only [Option.bind_eq_bind, Option.bind_eq_some_iff, Option.pure_def, Option.some.injEq] at hA
      obtain ⟨_, _, s, hs, rfl⟩ := hA
      exact ⟨rfl, rfl, hw s hs⟩
    simp only [Option.bind_eq_bind, Option.bind_some]
    cases m with
    | matlock s =>
      obtain ⟨hapi, heps⟩ := hm s rfl
      simp only [SoilModel.Model.py, MatlockClay.py, hapi, hlen.1, hlen.2.1]
      unfold SoilModel.guard
      by_cases hg : a.depth > a.height
      · simp only [if_pos hg]; exact .none
      · simp only [if_neg hg, Option.bind_eq_bind]
        cases hSu : Params.layered s.Su a.depth a.height with
        | none => exact .none
        | some Su =>
          cases hE : Params.layered s.eps50 a.depth a.height with
          | none => exact .none
          | some eps =>
            have he := heps _ _ _ hE
            simp only [Option.bind_some]
            cases hX : transition a.sig a.X Su a.D s.J with
            | none => simp only [apiClay, hX, Option.bind_eq_bind, Option.bind_none]; exact .none
            | some Xr =>
              obtain ⟨y, B, P, h⟩ := apiClay_form (kind := s.kind) he hlen.2.2 hX
              obtain ⟨R, e1, h1, h2, h3, h4, -⟩ := h _ hd
              obtain ⟨R', e1', h1', h2', h3', h4', -⟩ := h _ hd'
              rw [e1, e1']
              simp only [Option.bind_some, multiply, Option.bind_eq_bind]
              cases hy : s.y.val a.X with
              | none => exact .none
              | some ym =>
                cases hp : s.p.val a.X with
                | none => exact .none
                | some pm =>
                  simp only [Option.bind_some, Option.pure_def]
                  refine store_rel (alike_plateau h1 h1' (by rw [h2, h2']) rfl ?_ h3 h3' h4 h4')
                  have := hlen.2.2
                  unfold y50
                  positivity
    | _ => exact rel_refl _

/-! ### all springs of a Model -/

/-- Two sets of springs that resist alike; all but the p-y tables are equal. -/
structure AlikeArrays (A A' : Arrays) : Prop where
  py : ∀ i b, Alike (A.py i b) (A'.py i b)
  mt : A.mt = A'.mt
  tz : A.tz = A'.tz
  hb : A.hb = A'.hb
  mb : A.mb = A'.mb
  qz : A.qz = A'.qz

/-- The results of `random()` and `np.argsort` are as promised by Python and numpy. -/
def GoodEnv (env : Draws) : Prop := GoodDraws env ∧ GoodTip env ∧ GoodLateral env

theorem bind_rel {α β α' β' : Type} {r : α → α' → Prop} {r' : β → β' → Prop} {o : Option α} {o' : Option α'} {f : α → Option β} {f' : α' → Option β'}
    (h : Option.Rel r o o') (hf : ∀ a a', r a a' → Option.Rel r' (f a) (f' a')) : Option.Rel r' (o.bind f) (o'.bind f') := by
  cases h with
  | none => exact .none
  | some h => exact hf _ _ h

theorem bind_rel_eq {α β β' : Type} {r' : β → β' → Prop} {o o' : Option α} {f : α → Option β} {f' : α → Option β'}
    (h : o = o') (hf : ∀ a, Option.Rel r' (f a) (f' a)) : Option.Rel r' (o.bind f) (o'.bind f') := by
  subst h
  cases o with
  | none => exact .none
  | some a => exact hf a

theorem foldlM_rel {σ κ : Type} {r : σ → σ → Prop} {f g : σ → κ → Option σ} (L : List κ)
    (h : ∀ a a' x, x ∈ L → r a a' → Option.Rel r (f a x) (g a' x)) {s s' : σ} (hs : r s s') :
    Option.Rel r (L.foldlM f s) (L.foldlM g s') := by
  induction L generalizing s s' with
  | nil => exact .some hs
  | cons x L ih =>
    rw [List.foldlM_cons, List.foldlM_cons]
    exact bind_rel (h _ _ x (by simp) hs) (fun a a' ha => ih (fun a a' x hx => h a a' x (List.mem_cons_of_mem _ hx)) ha)

variable {env env' : Draws}

theorem axialStep_rel (he : GoodEnv env) (he' : GoodEnv env') {S : Input} {l : SoilLayer} {r : Row} {i : ℕ} {A A' : Arrays}
    (h : AlikeArrays A A') : Option.Rel AlikeArrays (axialStep S env l r i A) (axialStep S env' l r i A') := by
  unfold axialStep
  cases l.axial with
  | none => exact .some h
  | some m =>
    have last : ∀ B B' : Arrays, AlikeArrays B B' → Option.Rel AlikeArrays
        (if (tipIn S l && S.baseAxial) = true then (qzTip S l m r (env.qz l.top i)).bind (fun q => some { B with qz := q }) else some B)
        (if (tipIn S l && S.baseAxial) = true then (qzTip S l m r (env'.qz l.top i)).bind (fun q => some { B' with qz := q }) else some B') := by
      intro B B' hB
      by_cases hw : (tipIn S l && S.baseAxial) = true
      · simp only [if_pos hw]
        refine bind_rel_eq (qzTip_same (he.2.1 _ _).2 (he'.2.1 _ _).2) (fun t => ?_)
        exact .some { hB with qz := rfl }
      · simp only [if_neg hw]
        exact .some hB
    simp only [Option.bind_eq_bind]
    by_cases hw : S.distributedAxial = true
    · simp only [if_pos hw]
      refine bind_rel_eq (tzNode_same (he.1 _ _ _).2 (he'.1 _ _ _).2) (fun t => ?_)
      refine bind_rel_eq (tzNode_same (he.1 _ _ _).2 (he'.1 _ _ _).2) (fun b => ?_)
      exact last _ _ { h with tz := by rw [h.tz] }
    · simp only [if_neg hw]
      exact last _ _ h

theorem lateralStep_rel (he : GoodEnv env) (he' : GoodEnv env') {S : Input} {l : SoilLayer} {r : Row} {i : ℕ} {A A' : Arrays}
    (hm : ∀ m, l.lateral = some m → Steady m) (hw : ∀ s, r.sec = some s → 0 < s.width)
    (h : AlikeArrays A A') : Option.Rel AlikeArrays (lateralStep S env l r i A) (lateralStep S env' l r i A') := by
  unfold lateralStep
  cases hl : l.lateral with
  | none => exact .some h
  | some m =>
    have hm := hm m hl
    simp only [Option.bind_eq_bind]
    refine bind_rel (r := AlikeArrays) ?_ ?_
    · unfold pyStep
      by_cases hs : (m.signature.1 && S.distributedLateral) = true
      · simp only [if_pos hs]
        refine bind_rel (r := Alike) (pyNode_rel hm hw (he.2.2.1 _ _ _) (he'.2.2.1 _ _ _)) (fun t t' ht => ?_)
        refine bind_rel (r := Alike) (pyNode_rel hm hw (he.2.2.1 _ _ _) (he'.2.2.1 _ _ _)) (fun b b' hb => ?_)
        refine .some { h with py := ?_ }
        intro j c
        simp only [setBoth]
        split_ifs
        exacts [hb, ht, h.py j c]
      · simp only [if_neg hs]
        exact .some h
    · intro B B' hB
      refine bind_rel (r := AlikeArrays) ?_ ?_
      · unfold mtStep
        by_cases hs : (m.signature.2.2.1 && S.distributedMoment) = true
        · simp only [if_pos hs]
          refine bind_rel_eq (mtNode_same (he.2.2.2 _ _ _).2 (he'.2.2.2 _ _ _).2) (fun t => ?_)
          refine bind_rel_eq (mtNode_same (he.2.2.2 _ _ _).2 (he'.2.2.2 _ _ _).2) (fun b => ?_)
          exact .some { hB with mt := by rw [hB.mt] }
        · simp only [if_neg hs]
          exact .some hB
      · intro C C' hC
        refine bind_rel (r := AlikeArrays) ?_ ?_
        · unfold hbStep
          by_cases hs : (tipIn S l && (m.signature.2.1 && S.baseShear)) = true
          · simp only [if_pos hs]
            exact bind_rel_eq rfl (fun c => .some { hC with hb := rfl })
          · simp only [if_neg hs]
            exact .some hC
        · intro E E' hE
          unfold mbStep
          by_cases hs : (tipIn S l && (m.signature.2.2.2 && S.baseMoment)) = true
          · simp only [if_pos hs]
            exact bind_rel_eq rfl (fun c => .some { hE with mb := rfl })
          · simp only [if_neg hs]
            exact .some hE

theorem createSprings_rel (he : GoodEnv env) (he' : GoodEnv env') {S : Input}
    (hm : ∀ l ∈ S.layers, ∀ m, l.lateral = some m → Steady m) (hw : ∀ r ∈ S.rows, ∀ s, r.sec = some s → 0 < s.width) :
    Option.Rel AlikeArrays (createSprings S env) (createSprings S env') := by
  unfold createSprings
  refine bind_rel (r := AlikeArrays) ?_ ?_
  · unfold fillArrays
    refine foldlM_rel _ ?_ ⟨fun _ _ => Alike.refl _, rfl, rfl, rfl, rfl, rfl⟩
    intro A A' l hl hA
    refine foldlM_rel _ ?_ hA
    intro A A' x hx hA
    unfold step
    refine bind_rel (axialStep_rel he he' hA) (fun B B' hB => lateralStep_rel he he' (hm l hl) ?_ hB)
    obtain ⟨h1, -⟩ := List.mem_filter.1 hx
    exact hw x.1 (List.fst_mem_of_mem_zipIdx h1)
  · intro A A' h
    exact .some { h with tz := by rw [h.tz], qz := by rw [h.qz] }

theorem modelSprings_rel (he : GoodEnv env) (he' : GoodEnv env') {p : Pile.Pile ℝ} {sp : SoilProfile} {x2mesh : List ℝ}
    {coarseness : ℝ} {w : Switches} {table : List (ℝ × Pile.Section ℝ)}
    (hm : ∀ l ∈ sp.layers, ∀ m, l.lateral = some m → Steady m) (hw : ∀ x ∈ table, 0 < x.2.width) :
    Option.Rel AlikeArrays (modelSprings p sp x2mesh coarseness w table env) (modelSprings p sp x2mesh coarseness w table env') := by
  unfold modelSprings
  cases hI : input p sp x2mesh coarseness w table with
  | none => exact .none
  | some S =>
    simp only [Option.bind_eq_bind, Option.bind_some]
    unfold input at hI
    simp only [Option.bind_eq_bind, Option.bind_eq_some_iff, Option.pure_def, Option.some.injEq] at hI
    obtain ⟨rows, _, _, _, _, _, _, _, rfl⟩ := hI
    refine createSprings_rel he he' hm ?_
    intro r hr s hs
    obtain ⟨x, -, rfl⟩ := List.mem_map.1 hr
    simp only [rowOf, Model.elementSection, Option.map_eq_some_iff] at hs
    obtain ⟨y, hy, rfl⟩ := hs
    exact hw y (List.mem_of_find?_eq_some hy)

/-! ### the analysis -/

theorem pyAt_same {w : Switches} {A A' : Arrays} (h : AlikeArrays A A') {n : ℕ} (kind : Kind) (u : Fin (3 * n + 3) → ℝ)
    (e : Fin n) (b : Bool) : pyAt (springsOf w A n) kind u e b = pyAt (springsOf w A' n) kind u e b := by
  simp only [pyAt, springsOf, (h.py e.1 b).2]
  rfl

theorem mt_same {w : Switches} {A A' : Arrays} (h : AlikeArrays A A') (n : ℕ) : (springsOf w A n).mt = (springsOf w A' n).mt := by
  funext e b
  simp only [springsOf, h.mt, (h.py e.1 b).1]

theorem build_same {w : Switches} {A A' : Arrays} (h : AlikeArrays A A') (ty : Kernel.ElementType) {n : ℕ} (el : Fin n → Kernel.Elem ℝ) :
    buildStiffness ty el (springsOf w A n) = buildStiffness ty el (springsOf w A' n) := by
  funext kind u
  have hs : soilAt (springsOf w A n) kind u = soilAt (springsOf w A' n) kind u := by
    funext e
    have h1 : ∀ b, pyAt (springsOf w A n) kind u e b = pyAt (springsOf w A' n) kind u e b := pyAt_same h kind u e
    have h2 : ∀ b, tzAt (springsOf w A n) kind u e b = tzAt (springsOf w A' n) kind u e b := by
      intro b; simp only [tzAt, springsOf, h.tz]; rfl
    have h3 : ∀ b, mtAt (springsOf w A n) kind u e b = mtAt (springsOf w A' n) kind u e b := by
      intro b
      simp only [mtAt, mt_same h]
      simp only [springsOf, (h.py e.1 b).2]
      rfl
    simp only [soilAt, h1, h2, h3]
  have e1 : (springsOf w A n).hb = (springsOf w A' n).hb := h.hb
  have e2 : (springsOf w A n).mb = (springsOf w A' n).mb := h.mb
  have e3 : (springsOf w A n).qz = (springsOf w A' n).qz := h.qz
  simp only [buildStiffness, hs, e1, e2, e3]
  rfl

theorem mobRow_same {e u r : ℝ} {c c' : Curve} (h : Alike c c') (t : MtTable ℝ) (ncol : ℕ) :
    Result.mobRow e u r c t ncol = Result.mobRow e u r c' t ncol := by
  simp only [Result.mobRow, h.1, h.2]

theorem flat_get {α : Type} (n : ℕ) (f : Fin n → Bool → α) (i : ℕ) :
    (flat n f)[i]? = if h : i / 2 < n then some (f ⟨i / 2, h⟩ (decide (i % 2 = 1))) else none := by
  induction n generalizing i with
  | zero => simp [flat]
  | succ n ih =>
    have e : flat (n + 1) f = f 0 false :: f 0 true :: flat n (fun j => f j.succ) := by
      simp [flat, List.ofFn_succ]
    rw [e]
    match i with
    | 0 => simp
    | 1 => simp
    | i + 2 =>
      rw [List.getElem?_cons_succ, List.getElem?_cons_succ, ih]
      have h2 : (i + 2) / 2 = i / 2 + 1 := by omega
      have h3 : (i + 2) % 2 = i % 2 := by omega
      by_cases h : i / 2 < n
      · rw [dif_pos h, dif_pos (by omega)]
        simp only [h2, h3]
        rfl
      · rw [dif_neg h, dif_neg (by omega)]

theorem springsMob_same {w : Switches} {A A' : Arrays} (h : AlikeArrays A A') (n : ℕ) (z uy ur : List ℝ) :
    Result.springsMob z uy ur (flat n (springsOf w A n).py) (flat n (springsOf w A n).mt) (springsOf w A n).ncol
      = Result.springsMob z uy ur (flat n (springsOf w A' n).py) (flat n (springsOf w A' n).mt) (springsOf w A' n).ncol := by
  unfold Result.springsMob
  rw [mt_same h]
  have hn : (springsOf w A n).ncol = (springsOf w A' n).ncol := rfl
  rw [hn]
  congr 1; funext x; congr 1; funext dy; congr 1; funext dr; congr 1; funext i
  congr 1; funext e; congr 1; funext u; congr 1; funext r
  rw [flat_get n (springsOf w A n).py, flat_get n (springsOf w A' n).py]
  by_cases hi : i / 2 < n
  · rw [dif_pos hi, dif_pos hi]
    simp only [Option.bind_eq_bind, Option.bind_some]
    congr 1; funext tbl
    exact mobRow_same (h.py _ _) _ _
  · rw [dif_neg hi, dif_neg hi]

theorem results_same {w : Switches} {A A' : Arrays} (h : AlikeArrays A A') (ty : Kernel.ElementType) (nodes : List ℝ) {n : ℕ}
    (el : Fin n → Kernel.Elem ℝ) (d Q : Fin (3 * n + 3) → ℝ) (it : ℕ) (t r : ℝ) :
    results ty nodes el (springsOf w A n) d Q it t r = results ty nodes el (springsOf w A' n) d Q it t r := by
  simp only [results, springsMob_same h]
  simp only [springsOf, h.hb, h.mb]

theorem solveSoilOn_same {w : Switches} {A A' : Arrays} (h : AlikeArrays A A') (ty : Kernel.ElementType) (p : Pile.Pile ℝ)
    (C : Mesh.Coordinates ℝ) (bcs : List (BC.Cond ℝ)) (N : ℕ) :
    solveSoilOn ty p C w A bcs N = solveSoilOn ty p C w A' bcs N := by
  simp only [solveSoilOn, build_same h, results_same h]

/-- **C90.** The result of an analysis, with all its tables, and the axial capacities do not depend on the numbers that
`random()` returns nor on the order `np.argsort` gives to ties, if no layer has `Modified_Matlock_clay`. -/
theorem C90_reproducible_partial (he : GoodEnv env) (he' : GoodEnv env') (p : Pile.Pile ℝ) (sp : SoilProfile) (x2mesh : List ℝ)
    (coarseness : ℝ) (w : Switches) (table : List (ℝ × Pile.Section ℝ))
    (hm : ∀ l ∈ sp.layers, ∀ m, l.lateral = some m → Steady m) (hw : ∀ x ∈ table, 0 < x.2.width) :
    (∀ ty bcs, solveSoil ty p sp x2mesh coarseness w table env bcs = solveSoil ty p sp x2mesh coarseness w table env' bcs) ∧
    shaft p sp x2mesh coarseness w table env = shaft p sp x2mesh coarseness w table env' ∧
    tip p sp x2mesh coarseness w table env = tip p sp x2mesh coarseness w table env' := by
  have hr := modelSprings_rel he he' (p := p) (x2mesh := x2mesh) (coarseness := coarseness) (w := w) hm hw
  unfold solveSoil shaft tip
  generalize modelSprings p sp x2mesh coarseness w table env = o at hr ⊢
  generalize modelSprings p sp x2mesh coarseness w table env' = o' at hr ⊢
  cases hr with
  | none => exact ⟨fun _ _ => rfl, rfl, rfl⟩
  | some h =>
    refine ⟨fun ty bcs => ?_, ?_, ?_⟩
    · simp only [Option.bind_eq_bind, Option.bind_some, solveSoilOn_same h]
    · simp only [Option.bind_eq_bind, Option.bind_some, h.tz]
    · simp only [Option.bind_eq_bind, Option.bind_some, h.qz]


/-! ### tables that depend on the draws -/

/-- At the displacement of one of its points a table gives the resistance of that point. -/
theorem interp_at {x p : ℝ} : ∀ {L : Curve}, L.Pairwise (fun a b => a.1 ≤ b.1) → (∀ q ∈ L, q.1 = x → q.2 = p) →
    (∃ q ∈ L, q.1 = x) → interp x L = some p
  | [], _, _, h => by simp at h
  | [(a, f)], _, hp, ⟨q, hq, e⟩ => by
      simp only [List.mem_singleton] at hq
      subst hq
      simp only [interp]
      exact congrArg some (hp (a, f) (by simp) e)
  | (a, f) :: (b, g) :: rest, hs, hp, ⟨q, hq, e⟩ => by
      rw [List.pairwise_cons] at hs
      simp only [interp]
      have hax : a ≤ x := by
        rcases List.mem_cons.1 hq with rfl | h
        · exact e.le
        · exact (hs.1 q h).trans e.le
      rw [if_neg (not_lt.2 hax)]
      by_cases hb : x < b
      · rw [if_pos hb]
        have hxa : a = x := by
          rcases List.mem_cons.1 hq with rfl | h
          · exact e
          · exfalso
            have : b ≤ q.1 := by
              rcases List.mem_cons.1 h with rfl | h'
              · exact le_rfl
              · exact (List.pairwise_cons.1 hs.2).1 q h'
            linarith
        have := hp (a, f) (by simp) hxa
        simp only at this
        rw [hxa, this]
        simp
      · rw [if_neg hb]
        refine interp_at hs.2 (fun q hq => hp q (List.mem_cons_of_mem _ hq)) ?_
        rcases List.mem_cons.1 hq with rfl | h
        · refine ⟨(b, g), by simp, le_antisymm (not_lt.1 hb) ?_⟩
          simp only at e
          rw [← e]
          exact hs.1 (b, g) (by simp)
        · exact ⟨q, h, e⟩

/-- Between its points a table with points on a strictly concave curve stays below the curve. -/
theorem interp_below {f : ℝ → ℝ} {M x : ℝ} (hf : StrictConcaveOn ℝ (Set.Icc 0 M) f) : ∀ {L : Curve},
    L.Pairwise (fun a b => a.1 ≤ b.1) → (∀ q ∈ L, 0 ≤ q.1 ∧ (q.1 ≤ M → q.2 = f q.1) ∧ q.1 ≠ x) →
    (∃ q, L.head? = some q ∧ q.1 < x) → (∃ q ∈ L, x < q.1 ∧ q.1 ≤ M) → ∃ v, interp x L = some v ∧ v < f x
  | [], _, _, _, h => by simp at h
  | [(a, g)], _, _, ⟨q, e, h⟩, ⟨q', hq', h', _⟩ => by
      simp only [List.head?_cons, Option.some.injEq] at e
      simp only [List.mem_singleton] at hq'
      subst e hq'
      linarith
  | (a, g) :: (b, g') :: rest, hs, hp, ⟨q, e, h⟩, ⟨q', hq', h', hM⟩ => by
      simp only [List.head?_cons, Option.some.injEq] at e
      subst e
      simp only at h
      rw [List.pairwise_cons] at hs
      have hq2 : q' ∈ (b, g') :: rest := by
        rcases List.mem_cons.1 hq' with rfl | h2
        · simp only at h'; linarith
        · exact h2
      simp only [interp]
      rw [if_neg (not_lt.2 h.le)]
      by_cases hb : x < b
      · rw [if_pos hb]
        refine ⟨_, rfl, ?_⟩
        have hbM : b ≤ M := by
          refine le_trans ?_ hM
          rcases List.mem_cons.1 hq2 with rfl | h2
          · exact le_rfl
          · exact (List.pairwise_cons.1 hs.2).1 q' h2
        obtain ⟨ha0, hga, -⟩ := hp (a, g) (by simp)
        obtain ⟨hb0, hgb, -⟩ := hp (b, g') (by simp)
        simp only at ha0 hb0 hga hgb
        have e1 := hga (by linarith)
        have e2 := hgb hbM
        have hab : 0 < b - a := by linarith
        have h1 : 0 < (b - x) / (b - a) := div_pos (by linarith) hab
        have h2 : 0 < (x - a) / (b - a) := div_pos (by linarith) hab
        have := hf.2 (⟨ha0, by linarith⟩ : a ∈ Set.Icc 0 M) (⟨hb0, hbM⟩ : b ∈ Set.Icc 0 M) (by linarith : a ≠ b) h1 h2
          (by field_simp; ring)
        have ex : ((b - x) / (b - a)) • a + ((x - a) / (b - a)) • b = x := by
          simp only [smul_eq_mul]; field_simp; ring
        rw [ex] at this
        simp only [smul_eq_mul] at this
        refine lt_of_eq_of_lt ?_ this
        rw [e1, e2]
        field_simp
        ring
      · rw [if_neg hb]
        refine interp_below hf hs.2 (fun q hq => hp q (List.mem_cons_of_mem _ hq)) ⟨(b, g'), rfl, ?_⟩ ⟨q', hq2, h', hM⟩
        exact lt_of_le_of_ne (not_lt.1 hb) (hp (b, g') (by simp)).2.2

/-- The rising part of the clay curves is strictly concave. -/
theorem power_concave {P q : ℝ} (hP : 0 < P) (hq : 0 < q) :
    StrictConcaveOn ℝ (Set.Icc 0 (8 * q)) (fun y => P * (y / q) ^ (33 / 100 : ℝ) / 2) := by
  have h := (Real.strictConcaveOn_rpow (p := 33 / 100) (by norm_num) (by norm_num))
  refine ⟨convex_Icc _ _, ?_⟩
  intro a ha b hb hab s t hs ht hst
  have := h.2 (div_nonneg ha.1 hq.le : a / q ∈ Set.Ici 0) (div_nonneg hb.1 hq.le : b / q ∈ Set.Ici 0)
    (fun e => hab (by field_simp at e; exact e)) hs ht hst
  simp only [smul_eq_mul] at this ⊢
  have e : (s * a + t * b) / q = s * (a / q) + t * (b / q) := by field_simp
  rw [e]
  nlinarith

theorem secant_of_interp {c : Curve} {x y p : ℝ} {R : Curve} (hc : c = (0, 0) :: (y, p) :: R) (hn : ∀ q ∈ c, 0 ≤ q.1) {u v : ℝ}
    (hu : 0 < u) (hx : ∃ q ∈ c, u ≤ q.1) (hv : interp u c = some v) : pyStiffness c .secant u = some |v / u| := by
  obtain ⟨q, hq, hqu⟩ := hx
  have hsum : (c.map Prod.fst).sum ≠ 0 := by
    refine ne_of_gt (lt_of_lt_of_le (hu.trans_le hqu) (List.single_le_sum ?_ q.1 (List.mem_map.2 ⟨q, hq, rfl⟩)))
    intro z hz
    obtain ⟨r, hr, rfl⟩ := List.mem_map.1 hz
    exact hn r hr
  unfold pyStiffness
  rw [if_neg hsum]
  have hres : resistance c u = some v := by
    unfold resistance
    cases hm : maxDisp c with
    | none =>
      unfold maxDisp at hm
      rw [List.max?_eq_none_iff] at hm
      rw [hc] at hm
      simp at hm
    | some m =>
      have hle : q.1 ≤ m := by
        unfold maxDisp at hm
        exact (List.max?_eq_some_iff.1 hm).2 _ (List.mem_map.2 ⟨q, hq, rfl⟩)
      simp only [Option.bind_eq_bind, Option.bind_some]
      rw [if_neg (not_lt.2 (hqu.trans hle))]
      exact hv
  subst hc
  simp only [curveStiffness]
  have h0 : ¬ ((Kind.secant : Kind) = .initial ∨ |u| = 0) := by
    rintro (h | h)
    · exact absurd h (by decide)
    · exact hu.ne' (abs_eq_zero.1 h)
  rw [if_neg h0]
  simp only [abs_of_pos hu, hres, Option.bind_eq_bind, Option.bind_some, sub_zero, absQuot, if_neg hu.ne']

/-- **C90 is violated by `Modified_Matlock_clay`.** A number `r` drawn for one table and not for the other, that does not
fall on one of the fixed points: under static loading the two tables of the same clay resist the displacement
`(0.01 + 7.99 r) y50` differently; the one for which `r` was drawn is stronger and stiffer. -/
theorem C90_violated_modified {sig X Su eps D J r : ℝ} {draws draws' : List ℝ} (hc : ClayData sig X Su eps D J) (hSu : 0 < Su)
    (hd : OpenPile.Lateral.Draws 15 draws) (hd' : OpenPile.Lateral.Draws 15 draws')
    (hr : r ∈ draws.take 7) (hr' : r ∉ draws'.take 7) (h0 : 0 < r)
    (hn : 1 / 100 + r * (8 - 1 / 100) ∉ [1 / 10, 1, 3]) :
    ∃ l l' v v' k k', modMatlock sig X Su eps D J .static 0 15 draws = some l ∧
      modMatlock sig X Su eps D J .static 0 15 draws' = some l' ∧
      interp ((1 / 100 + r * (8 - 1 / 100)) * (5 / 2 * eps * D)) l = some v ∧
      interp ((1 / 100 + r * (8 - 1 / 100)) * (5 / 2 * eps * D)) l' = some v' ∧ v' < v ∧
      pyStiffness l .secant ((1 / 100 + r * (8 - 1 / 100)) * (5 / 2 * eps * D)) = some k ∧
      pyStiffness l' .secant ((1 / 100 + r * (8 - 1 / 100)) * (5 / 2 * eps * D)) = some k' ∧ k' < k := by
  obtain ⟨l, e, hl⟩ := C31_modified_matlock (kind := .static) (ymax := 0) (len := 15) hc (by simpa using hd) le_rfl
  obtain ⟨l', e', hl'⟩ := C31_modified_matlock (kind := .static) (ymax := 0) (len := 15) hc (by simpa using hd') le_rfl
  have hq : 0 < 5 / 2 * eps * D := by have := hc.eps; have := hc.D; positivity
  have hP : 0 < clayUltimate sig X Su D J := by
    have := hc.D; have := hc.J; have := hc.X; have := hc.sig
    unfold clayUltimate clayDeep clayWedge
    refine lt_min (by positivity) (by positivity)
  set q := 5 / 2 * eps * D with hqd
  set P := clayUltimate sig X Su D J with hPd
  set x := (1 / 100 + r * (8 - 1 / 100)) * q with hx
  have hr1 : r < 1 := (hd.range r (List.mem_of_mem_take hr)).2
  have hx0 : 1 / 100 * q < x := by rw [hx]; nlinarith
  have hx8 : x < 8 * q := by rw [hx]; nlinarith
  have y1 := modMatlock_ys e
  have y2 := modMatlock_ys e'
  have hy50 : y50 eps D = q := rfl
  have hym : ymaxClay q 0 = 16 * q := by simp [ymaxClay]
  rw [hy50, hym] at y1 y2
  have hk : [0, 1 / 100 * q, 1 / 10 * q, 1 * q, 3 * q, 8 * q, 15 * q, 16 * q].filter (fun y => decide (y ≤ 16 * q))
      = [0, 1 / 100 * q, 1 / 10 * q, 1 * q, 3 * q, 8 * q, 15 * q, 16 * q] := by
    rw [List.filter_eq_self]
    simp only [List.mem_cons, List.not_mem_nil, or_false, decide_eq_true_eq]
    rintro a (rfl | rfl | rfl | rfl | rfl | rfl | rfl | rfl) <;> linarith
  have mem : ∀ (l : Curve) (draws : List ℝ), l.map Prod.fst = yVector [0, 1 / 100 * q, 1 / 10 * q, 1 * q, 3 * q, 8 * q, 15 * q, 16 * q]
      (16 * q) (max 8 15) (fun r => 1 / 100 * q + r * (8 - 1 / 100) * q) draws → ∀ y, (∃ t ∈ l, t.1 = y) ↔
      y ∈ [0, 1 / 100 * q, 1 / 10 * q, 1 * q, 3 * q, 8 * q, 15 * q, 16 * q] ∨
        ∃ s ∈ draws.take 7, 1 / 100 * q + s * (8 - 1 / 100) * q = y := by
    intro l draws h y
    rw [← fst_mem_iff h, mem_yVector, hk]
    have h7 : max 8 15 - [0, 1 / 100 * q, 1 / 10 * q, 1 * q, 3 * q, 8 * q, 15 * q, 16 * q].length = 7 := rfl
    rw [h7]
    refine or_congr ⟨fun h => h.1, fun h => ⟨h, ?_⟩⟩ Iff.rfl
    simp only [List.mem_cons, List.not_mem_nil, or_false] at h
    rcases h with rfl | rfl | rfl | rfl | rfl | rfl | rfl | rfl <;> linarith
  have law : ∀ l : Curve, ClayCurve .static (max 8 15) sig X Su eps D J (1 / 2) 1 l → ∀ t ∈ l, t.1 ≤ 8 * q →
      t.2 = P * (t.1 / q) ^ (33 / 100 : ℝ) / 2 := by
    intro l hl t ht h8
    obtain ⟨Xr, -, hlaw⟩ := hl.law
    have := hlaw t ht
    exact (this.1 rfl).rise h8
  have head : ∀ l : Curve, ClayCurve .static (max 8 15) sig X Su eps D J (1 / 2) 1 l → ∃ y p R, l = (0, 0) :: (y, p) :: R := by
    intro l hl
    have h1 := hl.table.length
    have h2 := hl.table.start
    match l, h1, h2 with
    | [], h1, _ => simp at h1
    | [_], h1, _ => simp at h1
    | a :: (y, p) :: R, _, h2 =>
      simp only [List.head?_cons, Option.some.injEq] at h2
      exact ⟨y, p, R, by rw [h2]⟩
  have hxl : ∃ t ∈ l, t.1 = x := by
    rw [mem l draws y1]
    exact Or.inr ⟨r, hr, by rw [hx]; ring⟩
  have hxl' : ¬ ∃ t ∈ l', t.1 = x := by
    rw [mem l' draws' y2]
    rintro (h | ⟨s, hs, h⟩)
    · simp only [List.mem_cons, List.not_mem_nil, or_false] at h
      apply hn
      simp only [List.mem_cons, List.not_mem_nil, or_false]
      rcases h with h | h | h | h | h | h | h | h
      · nlinarith
      · linarith
      · exact Or.inl (mul_right_cancel₀ hq.ne' (hx ▸ h))
      · exact Or.inr (Or.inl (mul_right_cancel₀ hq.ne' (hx ▸ h)))
      · exact Or.inr (Or.inr (mul_right_cancel₀ hq.ne' (hx ▸ h)))
      · linarith
      · linarith
      · linarith
    · apply hr'
      have : s = r := by
        have h3 : (s - r) * ((8 - 1 / 100) * q) = 0 := by rw [hx] at h; linarith
        rcases mul_eq_zero.1 h3 with h3 | h3
        · linarith
        · nlinarith
      exact this ▸ hs
  have h8 : ∃ t ∈ l', t.1 = 8 * q := (mem l' draws' y2 _).2 (Or.inl (by simp))
  obtain ⟨t8, ht8, e8⟩ := h8
  have iv : interp x l = some (P * (x / q) ^ (33 / 100 : ℝ) / 2) := by
    refine interp_at hl.table.sorted (fun t ht hte => ?_) hxl
    rw [law l hl t ht (by linarith), hte]
  obtain ⟨v', iv', hlt⟩ := interp_below (power_concave hP hq) (x := x) hl'.table.sorted
    (fun t ht => ⟨(hl'.table.nonneg t ht).1, law l' hl' t ht, fun h => hxl' ⟨t, ht, h⟩⟩)
    ⟨(0, 0), hl'.table.start, by simp only; nlinarith⟩ ⟨t8, ht8, by rw [e8]; exact hx8, e8.le⟩
  have hxp : 0 < x := by nlinarith
  obtain ⟨a, b, R, hform⟩ := head l hl
  obtain ⟨a', b', R', hform'⟩ := head l' hl'
  obtain ⟨tx, htx, etx⟩ := hxl
  have k1 := secant_of_interp (x := x) hform (fun t ht => (hl.table.nonneg t ht).1) hxp ⟨tx, htx, etx.ge⟩ iv
  have k2 := secant_of_interp (x := x) hform' (fun t ht => (hl'.table.nonneg t ht).1) hxp ⟨t8, ht8, by rw [e8]; exact hx8.le⟩ iv'
  have hv0 : 0 ≤ v' := (interp_bounds x v' 0 _ l' iv'
    (fun t ht => ⟨(hl'.table.nonneg t ht).2, hl'.table.bounded t ht⟩)).1
  refine ⟨l, l', _, v', _, _, e, e', iv, iv', hlt, k1, k2, ?_⟩
  rw [abs_of_nonneg (div_nonneg hv0 hxp.le), abs_of_nonneg (div_nonneg (hv0.trans hlt.le) hxp.le)]
  exact div_lt_div_of_pos_right hlt hxp

/-- **C90 is violated by the tables of `api_clay`.** A number drawn for one table and not for the other gives tables with
different points. -/
theorem C90_violated_tables {sig X Su eps D J r : ℝ} {kind : Loading} {draws draws' : List ℝ} (hc : ClayData sig X Su eps D J)
    (hd : OpenPile.Lateral.Draws 15 draws) (hd' : OpenPile.Lateral.Draws 15 draws')
    (hr : r ∈ draws.take 7) (hr' : r ∉ draws'.take 7) (h0 : 0 < r) :
    ∃ l l', apiClay sig X Su eps D J kind 0 15 draws = some l ∧ apiClay sig X Su eps D J kind 0 15 draws' = some l' ∧
      (15 + r) * (5 / 2 * eps * D) ∈ l.map Prod.fst ∧ (15 + r) * (5 / 2 * eps * D) ∉ l'.map Prod.fst := by
  obtain ⟨l, e, -⟩ := C31_api_clay (kind := kind) (ymax := 0) (len := 15) hc (by simpa using hd) le_rfl
  obtain ⟨l', e', -⟩ := C31_api_clay (kind := kind) (ymax := 0) (len := 15) hc (by simpa using hd') le_rfl
  refine ⟨l, l', e, e', ?_⟩
  have hq : 0 < 5 / 2 * eps * D := by have := hc.eps; have := hc.D; positivity
  have y1 := apiClay_ys e
  have y2 := apiClay_ys e'
  have hy50 : y50 eps D = 5 / 2 * eps * D := rfl
  rw [hy50] at y1 y2
  set q := 5 / 2 * eps * D with hqd
  have hym : ymaxClay q 0 = 16 * q := by simp [ymaxClay]
  rw [hym] at y1 y2
  have hr1 : r < 1 := (hd.range r (List.mem_of_mem_take hr)).2
  have hk : [0, 1 / 10 * q, 3 / 10 * q, 1 * q, 3 * q, 8 * q, 15 * q, 16 * q].filter (fun y => decide (y ≤ 16 * q))
      = [0, 1 / 10 * q, 3 / 10 * q, 1 * q, 3 * q, 8 * q, 15 * q, 16 * q] := by
    rw [List.filter_eq_self]
    simp only [List.mem_cons, List.not_mem_nil, or_false, decide_eq_true_eq]
    rintro a (rfl | rfl | rfl | rfl | rfl | rfl | rfl | rfl) <;> linarith
  have h7 : max 8 15 - [0, 1 / 10 * q, 3 / 10 * q, 1 * q, 3 * q, 8 * q, 15 * q, 16 * q].length = 7 := rfl
  rw [y1, y2, mem_yVector, mem_yVector, hk, h7]
  refine ⟨Or.inr ⟨r, hr, by ring⟩, ?_⟩
  rintro (⟨h, -⟩ | ⟨s, hs, h⟩)
  · simp only [List.mem_cons, List.not_mem_nil, or_false] at h
    rcases h with h | h | h | h | h | h | h | h <;> nlinarith
  · apply hr'
    have : s = r := by
      have h3 : (s - r) * q = 0 := by linarith
      rcases mul_eq_zero.1 h3 with h3 | h3
      · linarith
      · linarith
    exact this ▸ hs

/-! ### cases -/

/-- Random numbers 1/4 throughout. -/
noncomputable def quarters : Assemble.Draws :=
  let e : Env := ⟨List.replicate 15 (1 / 4), fun _ => 1 / 4, Props.Axial.stableArgsort⟩
  ⟨fun _ _ _ => e, fun _ _ _ => e, fun _ _ _ => e, fun _ _ => e⟩

theorem good_quarters : GoodEnv quarters :=
  ⟨fun _ _ _ => ⟨fun _ => ⟨by norm_num [quarters], by norm_num [quarters]⟩, Props.Axial.stableArgsort_spec⟩,
   fun _ _ => ⟨fun _ => ⟨by norm_num [quarters], by norm_num [quarters]⟩, Props.Axial.stableArgsort_spec⟩,
   fun _ _ _ => ⟨by simp [quarters], by norm_num [quarters]⟩,
   fun _ _ _ => ⟨fun _ => ⟨by norm_num [quarters], by norm_num [quarters]⟩, Props.Axial.stableArgsort_spec⟩⟩

/-- A tube in API clay with all springs: the Model is created, the draws 1/2 and 1/4 give the same analysis. -/
example (b : Bool) (w : Switches) (ty : Kernel.ElementType) (bcs : List (BC.Cond ℝ)) :
    (∃ A, modelSprings Creation.tube (Creation.soil (.matlock (Creation.clay b))) [] 1 w (OpenPile.Model.stableRows Creation.tube)
      Props.Assemble.drawsExample = some A) ∧
    solveSoil ty Creation.tube (Creation.soil (.matlock (Creation.clay b))) [] 1 w (OpenPile.Model.stableRows Creation.tube)
      Props.Assemble.drawsExample bcs
    = solveSoil ty Creation.tube (Creation.soil (.matlock (Creation.clay b))) [] 1 w (OpenPile.Model.stableRows Creation.tube)
      quarters bcs := by
  have hg : GoodEnv Props.Assemble.drawsExample := ⟨good_draws.1, good_draws.2, good_lateral⟩
  refine ⟨?_, (C90_reproducible_partial hg good_quarters Creation.tube (Creation.soil (.matlock (Creation.clay b))) [] 1 w
    (OpenPile.Model.stableRows Creation.tube) ?_ ?_).1 ty bcs⟩
  · obtain ⟨C, S, water, fc, ft, A, -, hS, -, -, -, -, -, -, -, -, hA⟩ := Creation.created (Creation.sound_clay b) w
    exact ⟨A, by rw [modelSprings, hS]; exact hA⟩
  · intro l hl m hm s hs
    simp only [Creation.soil, List.mem_singleton] at hl
    subst hl
    simp only [Option.some.injEq] at hm
    rw [← hm] at hs
    cases hs
    refine ⟨rfl, fun d h eps he => ?_⟩
    simp [Creation.clay, Params.layered, Params.topBottom] at he
    rw [← he.2]
    norm_num
  · intro x hx
    have hx' : x ∈ OpenPile.Model.pileRows Creation.tube := (Py.sortedBy_perm _ _).mem_iff.1 hx
    simp [OpenPile.Model.pileRows, Creation.tube] at hx'
    rcases hx' with rfl | rfl <;> norm_num [Pile.Section.width]

/-- Draws of 1/2 and of 1/4 for the same clay: different tables, and for the modified curve different springs. -/
example : ∃ l l', apiClay 45 5 50 (1 / 100) 2 (1 / 2) .static 0 15 (List.replicate 15 (1 / 2)) = some l ∧
    apiClay 45 5 50 (1 / 100) 2 (1 / 2) .static 0 15 (List.replicate 15 (1 / 4)) = some l' ∧ l ≠ l' := by
  obtain ⟨l, l', e, e', h, h'⟩ := C90_violated_tables (kind := .static) (r := 1 / 2) (draws := List.replicate 15 (1 / 2))
    (draws' := List.replicate 15 (1 / 4)) (sig := 45) (X := 5) (Su := 50) (eps := 1 / 100) (D := 2) (J := 1 / 2)
    (by constructor <;> norm_num) ⟨by simp, by norm_num [List.mem_replicate]⟩ ⟨by simp, by norm_num [List.mem_replicate]⟩
    (by norm_num) (by norm_num) (by norm_num)
  refine ⟨l, l', e, e', fun hll => ?_⟩
  rw [hll] at h
  exact h' h

example : ∃ l l' u k k', modMatlock 45 5 50 (1 / 100) 2 (1 / 2) .static 0 15 (List.replicate 15 (1 / 2)) = some l ∧
    modMatlock 45 5 50 (1 / 100) 2 (1 / 2) .static 0 15 (List.replicate 15 (1 / 4)) = some l' ∧
    pyStiffness l .secant u = some k ∧ pyStiffness l' .secant u = some k' ∧ k' < k := by
  obtain ⟨l, l', v, v', k, k', e, e', -, -, -, h, h', hk⟩ := C90_violated_modified (r := 1 / 2)
    (draws := List.replicate 15 (1 / 2))
    (draws' := List.replicate 15 (1 / 4)) (sig := 45) (X := 5) (Su := 50) (eps := 1 / 100) (D := 2) (J := 1 / 2)
    (by constructor <;> norm_num) (by norm_num) ⟨by simp, by norm_num [List.mem_replicate]⟩
    ⟨by simp, by norm_num [List.mem_replicate]⟩ (by norm_num) (by norm_num) (by norm_num) (by norm_num)
  exact ⟨l, l', _, k, k', e, e', h, h', hk⟩

end OpenPile.Props.Reproducible

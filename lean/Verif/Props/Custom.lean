/-
C38: a custom PISA model with the depth variation functions of `hooks.py` is the native model.
-/
import Verif.Model.SoilModel
import Verif.Props.Pisa

namespace OpenPile.Props.Custom
open OpenPile.SoilModel OpenPile.Hooks OpenPile.Params OpenPile.Conic

/-! ## The models a user builds -/

/-- The four functions of one spring, given as lambdas. -/
def lambdas (n : Norm) : Conics := ⟨.func n.k, .func n.n, .func n.X, .func n.Y⟩

/-- `Custom_pisa_sand(G0=..., **dunkirk_sand_pisa_norm_param(D, L, Dr))` with the stiffness and the
multipliers of a given Dunkirk sand. -/
noncomputable def likeDunkirk (s : Dunkirk) (D L Dr : ℝ) : Custom :=
  { Su := none, G0 := s.G0, pyC := lambdas (dunkirk D L Dr).py, mtC := lambdas (dunkirk D L Dr).mt,
    hbC := lambdas (dunkirk D L Dr).hb, mbC := lambdas (dunkirk D L Dr).mb,
    p := s.p, y := s.y, m := s.m, t := s.t }

/-- `Custom_pisa_clay(Su=..., G0=..., **cowden_clay_pisa_norm_param(D, L))` with the strength, the
stiffness and the multipliers of a given Cowden clay. -/
noncomputable def likeCowden (s : PisaClay) (D L : ℝ) : Custom :=
  { Su := some s.Su, G0 := s.G0, pyC := lambdas (cowden D L).py, mtC := lambdas (cowden D L).mt,
    hbC := lambdas (cowden D L).hb, mbC := lambdas (cowden D L).mb,
    p := s.p, y := s.y, m := s.m, t := s.t }

/-- The parameter is a number or a list, not a callable. -/
def Plain : Param ℝ → Prop
  | .scalar _ => True
  | .list _ => True
  | _ => False

/-! ## Clamps -/

theorem scaledConic_clamp {xu n k yu sx sy c : ℝ} {len : ℕ} (h : c ≤ yu / xu) :
    scaledConic xu n (max c k) yu sx sy len = scaledConic xu n k yu sx sy len := by
  have e : max (yu / xu) (max c k) = max (yu / xu) k := by rw [← max_assoc, max_eq_left h]
  unfold scaledConic conic
  rw [e]

theorem clamp_n {n : ℝ} (h0 : 0 ≤ n) (h1 : n ≤ 999 / 1000) : min (999 / 1000) (max 0 n) = n := by
  rw [max_eq_right h0, min_eq_right h1]

theorem valueAt_plain {p : Param ℝ} (hp : Plain p) (d h g : ℝ) : valueAt p d h g = layered p d h := by
  cases p <;> first | rfl | exact hp.elim

theorem layered_scalar (x d h : ℝ) : layered (.scalar x) d h = if h = 0 then none else some x := by
  simp [layered, topBottom]

theorem layered_height (p : Param ℝ) (d : ℝ) : layered p d 0 = none := by
  unfold layered
  cases topBottom p <;> simp

/-! ## Dunkirk sand -/

section sand
variable {X D L Dr G sig p : ℝ} {len : ℕ}

theorem py_dunkirk_eq (hD : 0 < D) (hL : 0 < L) (hX : 0 ≤ X) (hXL : X ≤ L) (hr : 0 ≤ Dr) (hr1 : Dr ≤ 100)
    (h8 : 8 ≤ len) {k n xu yu : ℝ} (hk : (dunkirkPy D L Dr).k X = some k)
    (hn : (dunkirkPy D L Dr).n X = some n) (hxu : (dunkirkPy D L Dr).X X = some xu)
    (hyu : (dunkirkPy D L Dr).Y X = some yu) :
    pyCustomSand sig G D xu n k yu len = pyDunkirk sig X Dr G D L len := by
  have hz0 : 0 ≤ X / L := by positivity
  have hz1 : X / L ≤ 1 := (div_le_one hL).2 hXL
  have hm : 0 ≤ Dr / 100 * (1 - X / L) := mul_nonneg (by linarith) (by linarith)
  simp only [dunkirkPy, over, if_neg hD.ne', if_neg hL.ne', Option.some.injEq] at hk hn hxu hyu
  have hy : 3667 / 10000 ≤ 3667 / 10000 + 2589 / 100 * (Dr / 100)
      + (3375 / 10000 - 89 / 10 * (Dr / 100)) * X / L := by
    rw [ratio]; nlinarith
  rw [max_eq_right (by linarith)] at hyu
  rw [clamp_n (by linarith) (by linarith)] at hn
  subst hn hxu hyu hk
  unfold pyCustomSand pyDunkirk
  by_cases hG : G = 0
  · simp [hG]
  · simp only
    rw [if_neg hG, if_neg (by push Not; exact ⟨hD.ne', hL.ne', hG⟩), scaledConic_clamp, max_eq_right h8]
    rw [le_div_iff₀ (by linarith)]
    linarith

theorem mt_dunkirk_eq (hD : 0 < D) (hL : 0 < L) (hX : 0 ≤ X) (hXL : X ≤ L) (hr : 0 ≤ Dr) (hp : 0 ≤ p)
    {k n xu yu : ℝ} (hk : (dunkirkMt L Dr).k X = some k)
    (hn : (dunkirkMt L Dr).n X = some n) (hxu : (dunkirkMt L Dr).X X = some xu)
    (hyu : (dunkirkMt L Dr).Y X = some yu) :
    mtCustomSand sig G p D xu n k yu len = mtDunkirk sig X Dr G p D L len := by
  have hz0 : 0 ≤ X / L := by positivity
  have hz1 : X / L ≤ 1 := (div_le_one hL).2 hXL
  have hm : 0 ≤ Dr / 100 * (X / L) := mul_nonneg (by linarith) hz0
  simp only [dunkirkMt, over, if_neg hL.ne', Option.some.injEq] at hk hn hxu hyu
  have hy : 1 / 1000 ≤ 2605 / 10000 + (-1989 / 10000 + 2019 / 10000 * (Dr / 100)) * X / L := by
    rw [ratio]; nlinarith
  rw [max_eq_right hy] at hyu hxu
  subst hn hxu hyu hk
  unfold mtCustomSand mtDunkirk
  by_cases hG : G = 0
  · simp [hG]
  · simp only
    rw [if_neg hG, if_neg (by push Not; exact ⟨hD.ne', hL.ne', hG⟩), abs_of_nonneg hp]
    simp

theorem hb_dunkirk_eq (hD : 0 < D) (hL : 0 ≤ L) (hLD : L ≤ 6 * D) (hr : 0 ≤ Dr) (hr1 : Dr ≤ 100)
    {k n xu yu : ℝ} (hk : (dunkirkHb D L Dr).k X = some k)
    (hn : (dunkirkHb D L Dr).n X = some n) (hxu : (dunkirkHb D L Dr).X X = some xu)
    (hyu : (dunkirkHb D L Dr).Y X = some yu) :
    hbCustomSand sig G D xu n k yu len = hbDunkirk sig Dr G D L len := by
  have hl0 : 0 ≤ L / D := by positivity
  have hl1 : L / D ≤ 6 := (div_le_iff₀ hD).2 hLD
  have m1 : 0 ≤ Dr / 100 * (6 - L / D) := mul_nonneg (by linarith) (by linarith)
  have m2 : 0 ≤ Dr / 100 * (L / D) := mul_nonneg (by linarith) hl0
  have m3 : 0 ≤ (1 - Dr / 100) * (L / D) := mul_nonneg (by linarith) hl0
  have m4 : 0 ≤ (1 - Dr / 100) * (6 - L / D) := mul_nonneg (by linarith) (by linarith)
  simp only [dunkirkHb, over, if_neg hD.ne', Option.some.injEq] at hk hn hxu hyu
  rw [max_eq_right (by rw [ratio]; nlinarith)] at hyu
  rw [clamp_n (by rw [ratio]; nlinarith) (by rw [ratio]; nlinarith)] at hn
  subst hn hxu hyu hk
  unfold hbCustomSand hbDunkirk
  by_cases hG : G = 0
  · simp [hG]
  · simp only
    rw [if_neg hG, if_neg (by push Not; exact ⟨hD.ne', hG⟩), scaledConic_clamp]
    rw [ratio, ratio, le_div_iff₀ (by nlinarith)]
    nlinarith

theorem mb_dunkirk_eq (hD : 0 < D) (hL : 0 ≤ L) (hLD : L ≤ 6 * D) (hr : 0 ≤ Dr) (hr1 : Dr ≤ 100)
    {k n xu yu : ℝ} (hk : (dunkirkMb D L Dr).k X = some k)
    (hn : (dunkirkMb D L Dr).n X = some n) (hxu : (dunkirkMb D L Dr).X X = some xu)
    (hyu : (dunkirkMb D L Dr).Y X = some yu) :
    mbCustomSand sig G D xu n k yu len = mbDunkirk sig Dr G D L len := by
  have hl0 : 0 ≤ L / D := by positivity
  have hl1 : L / D ≤ 6 := (div_le_iff₀ hD).2 hLD
  have m1 : 0 ≤ Dr / 100 * (6 - L / D) := mul_nonneg (by linarith) (by linarith)
  have m2 : 0 ≤ Dr / 100 * (L / D) := mul_nonneg (by linarith) hl0
  have m4 : 0 ≤ (1 - Dr / 100) * (6 - L / D) := mul_nonneg (by linarith) (by linarith)
  simp only [dunkirkMb, over, if_neg hD.ne', Option.some.injEq] at hk hn hxu hyu
  rw [max_eq_right (by rw [ratio]; nlinarith)] at hyu
  rw [clamp_n (by linarith) (by linarith)] at hn
  subst hn hxu hyu hk
  unfold mbCustomSand mbDunkirk
  by_cases hG : G = 0
  · simp [hG]
  · simp only
    rw [if_neg hG, if_neg (by push Not; exact ⟨hD.ne', hG⟩)]
    simp

end sand

/-! ## Cowden clay -/

section clay
variable {X D L G Su : ℝ} {len : ℕ}

theorem py_cowden_eq (hD : 0 < D) (hX : 0 ≤ X) (hXD : X ≤ 28 * D)
    {k n xu yu : ℝ} (hk : (cowdenPy D).k X = some k)
    (hn : (cowdenPy D).n X = some n) (hxu : (cowdenPy D).X X = some xu)
    (hyu : (cowdenPy D).Y X = some yu) :
    pyCustomClay Su G D xu n k yu len = pyCowden X Su G D len := by
  have he := exp_le_one_of (a := -3085 / 10000) (by norm_num) hX hD
  have hz0 : 0 ≤ X / D := by positivity
  have hz1 : X / D ≤ 28 := (div_le_iff₀ hD).2 hXD
  simp only [cowdenPy, over, if_neg hD.ne', Option.some.injEq] at hk hn hxu hyu
  have hy : 1 ≤ 107 / 10 + -7101 / 1000 * Real.exp (-3085 / 10000 * X / D) := by
    generalize Real.exp _ = E at he ⊢
    linarith
  rw [max_eq_right (by linarith)] at hyu
  rw [clamp_n (by rw [ratio]; linarith) (by rw [ratio]; linarith)] at hn
  subst hn hxu hyu hk
  unfold pyCustomClay pyCowden
  by_cases hG : G = 0
  · simp [hG]
  · rw [if_neg hG, if_neg (by push Not; exact ⟨hD.ne', hG⟩), scaledConic_clamp]
    rw [le_div_iff₀ (by norm_num)]
    generalize Real.exp _ = E at hy ⊢
    linarith

theorem mt_cowden_eq (hD : 0 < D) (hX : 0 ≤ X) (hXD : X ≤ 6 * D)
    {k n xu yu : ℝ} (hk : (cowdenMt D).k X = some k)
    (hn : (cowdenMt D).n X = some n) (hxu : (cowdenMt D).X X = some xu)
    (hyu : (cowdenMt D).Y X = some yu) :
    mtCustomClay Su G D xu n k yu len = mtCowden X Su G D len := by
  have hz0 : 0 ≤ X / D := by positivity
  have hz1 : X / D ≤ 6 := (div_le_iff₀ hD).2 hXD
  simp only [cowdenMt, over, if_neg hD.ne', Option.some.injEq] at hk hn hxu hyu
  have e1 : (1 / 10000 : ℝ) ≤ 1420 / 1000 + -9643 / 100000 * X / D := by rw [ratio]; linarith
  have e2 : (1 / 10000 : ℝ) ≤ 2899 / 10000 + -4775 / 100000 * X / D := by rw [ratio]; linarith
  rw [max_eq_right e1] at hk hxu
  rw [max_eq_right e2] at hxu hyu
  subst hn hxu hyu hk
  unfold mtCustomClay mtCowden
  by_cases hG : G = 0
  · simp [hG]
  · simp only
    rw [if_neg hG, if_neg (by push Not; exact ⟨hD.ne', hG⟩), if_neg (by linarith)]
    simp

theorem hb_cowden_eq (hD : 0 < D) (hL : 0 ≤ L) (hLD : L ≤ 27 * D)
    {k n xu yu : ℝ} (hk : (cowdenHb D L).k X = some k)
    (hn : (cowdenHb D L).n X = some n) (hxu : (cowdenHb D L).X X = some xu)
    (hyu : (cowdenHb D L).Y X = some yu) :
    hbCustomClay Su G D xu n k yu len = hbCowden Su G D L len := by
  have hz0 : 0 ≤ L / D := by positivity
  have hz1 : L / D ≤ 27 := (div_le_iff₀ hD).2 hLD
  simp only [cowdenHb, over, if_neg hD.ne', Option.some.injEq] at hk hn hxu hyu
  rw [max_eq_right (by rw [ratio]; linarith)] at hyu
  rw [clamp_n (by rw [ratio]; linarith) (by rw [ratio]; linarith)] at hn
  subst hn hxu hyu hk
  unfold hbCustomClay hbCowden
  by_cases hG : G = 0
  · simp [hG]
  · rw [if_neg hG, if_neg (by push Not; exact ⟨hD.ne', hG⟩), scaledConic_clamp, zero_mul, zero_div,
      add_zero]
    rw [ratio, le_div_iff₀ (by norm_num)]
    linarith

theorem mb_cowden_eq (hD : 0 < D) (hL : D ≤ L) (hLD : L ≤ 19 / 2 * D)
    {k n xu yu : ℝ} (hk : (cowdenMb D L).k X = some k)
    (hn : (cowdenMb D L).n X = some n) (hxu : (cowdenMb D L).X X = some xu)
    (hyu : (cowdenMb D L).Y X = some yu) :
    mbCustomClay Su G D xu n k yu len = mbCowden Su G D L len := by
  have hz0 : 1 ≤ L / D := (le_div_iff₀ hD).2 (by linarith)
  have hz1 : L / D ≤ 19 / 2 := (div_le_iff₀ hD).2 hLD
  simp only [cowdenMb, over, if_neg hD.ne', Option.some.injEq] at hk hn hxu hyu
  rw [max_eq_right (by rw [ratio]; linarith)] at hyu hk
  rw [clamp_n (by rw [ratio]; linarith) (by rw [ratio]; linarith)] at hn
  subst hn hxu hyu hk
  unfold mbCustomClay mbCowden
  by_cases hG : G = 0
  · simp [hG]
  · rw [if_neg hG, if_neg (by push Not; exact ⟨hD.ne', hG⟩)]

end clay

/-! ## The models -/

theorem at_lambdas {n : Norm} {a : Args} {k m xu yu : ℝ} (hk : n.k a.X = some k) (hn : n.n a.X = some m)
    (hx : n.X a.X = some xu) (hy : n.Y a.X = some yu) : (lambdas n).at a = some (xu, m, k, yu) := by
  simp [lambdas, Conics.at, valueAt, hk, hn, hx, hy]

theorem mapM_congr {f g : ℝ × ℝ → Option (List (ℝ × ℝ))} {l : List (ℝ × ℝ)} (h : ∀ q ∈ l, f q = g q) :
    l.mapM f = l.mapM g := by
  induction l with
  | nil => rfl
  | cons q l ih =>
    rw [List.mapM_cons, List.mapM_cons, h q (by simp), ih (fun r hr => h r (by simp [hr]))]

/-- **C38, sand.** A custom sand with the Dunkirk functions for the diameter, the embedment and the
density of the pile and soil gives the p-y and m-t springs of Dunkirk sand at every depth along the pile,
and its base springs for piles of up to six diameters; where one fails the other does. -/
theorem C38_dunkirk_partial (s : Dunkirk) (a : Args) (Dr : ℝ) (hs : s.Dr = .scalar Dr)
    (hG : Plain s.G0) (hpos : ∀ g, layered s.G0 a.depth a.height = some g → 0 < g)
    (hD : 0 < a.D) (hL : 0 < a.L) (hX : 0 ≤ a.X) (hXL : a.X ≤ a.L) (hr : 0 ≤ Dr) (hr1 : Dr ≤ 100)
    (hsig : 0 ≤ a.sig) (h8 : 8 ≤ a.len) :
    (likeDunkirk s a.D a.L Dr).py a = s.py a ∧ (likeDunkirk s a.D a.L Dr).mt a = s.mt a ∧
    (a.L ≤ 6 * a.D →
      (likeDunkirk s a.D a.L Dr).hb a = s.hb a ∧ (likeDunkirk s a.D a.L Dr).mb a = s.mb a) := by
  by_cases hh : a.height = 0
  · have e : ∀ p : Param ℝ, layered p a.depth a.height = none := fun p => by
      rw [hh]; exact layered_height p _
    have e' : valueAt s.G0 a.depth a.height a.X = none := by rw [valueAt_plain hG]; exact e _
    refine ⟨?_, ?_, fun _ => ⟨?_, ?_⟩⟩
    · simp [Custom.py, Custom.pyCurve, Dunkirk.py, likeDunkirk, e, e']
    · simp [Custom.mt, Custom.pyCurve, Dunkirk.mt, likeDunkirk, e, e']
    · simp [Custom.hb, Dunkirk.hb, likeDunkirk, e, e']
    · simp [Custom.mb, Dunkirk.mb, likeDunkirk, e, e']
  · have e : layered s.Dr a.depth a.height = some Dr := by rw [hs, layered_scalar, if_neg hh]
    have e' := valueAt_plain hG a.depth a.height a.X
    have ep : (likeDunkirk s a.D a.L Dr).pyCurve a
        = (layered s.G0 a.depth a.height).bind
          (fun g => pyDunkirk a.sig a.X Dr g a.D a.L a.len) := by
      have o : ∀ x, over a.D x = some x := fun x => if_neg hD.ne'
      have o' : ∀ x, over a.L x = some x := fun x => if_neg hL.ne'
      unfold Custom.pyCurve
      rw [show (likeDunkirk s a.D a.L Dr).pyC = lambdas (dunkirkPy a.D a.L Dr) from rfl,
        at_lambdas (o _) rfl rfl (o' _)]
      simp only [likeDunkirk, e', Option.bind_eq_bind, Option.bind_some]
      congr 1
      funext g
      exact py_dunkirk_eq hD hL hX hXL hr hr1 h8 (o _) rfl rfl (o' _)
    refine ⟨?_, ?_, fun hLD => ⟨?_, ?_⟩⟩
    · unfold Custom.py Dunkirk.py
      rw [ep, e]
      simp only [Option.bind_eq_bind, Option.bind_some, Option.bind_assoc]
      rfl
    · unfold Custom.mt Dunkirk.mt
      rw [ep, e]
      simp only [Option.bind_eq_bind, Option.bind_some, Option.bind_assoc]
      congr 1
      cases hg : layered s.G0 a.depth a.height with
      | none => rfl
      | some g =>
        simp only [Option.bind_some]
        cases hp : pyDunkirk a.sig a.X Dr g a.D a.L a.len with
        | none => rfl
        | some l =>
          simp only [Option.bind_some]
          have hc := C29_py_dunkirk hD (hpos g hg) hsig hX hL hXL hr hr1 hp
          congr 1
          apply mapM_congr
          intro q hq
          have o' : ∀ x, over a.L x = some x := fun x => if_neg hL.ne'
          rw [show (likeDunkirk s a.D a.L Dr).mtC = lambdas (dunkirkMt a.L Dr) from rfl,
            at_lambdas rfl rfl (o' _) (o' _)]
          simp only [likeDunkirk, e', hg, Option.bind_some]
          exact mt_dunkirk_eq hD hL hX hXL hr (hc.nonneg q hq).2 rfl rfl (o' _) (o' _)
    · unfold Custom.hb Dunkirk.hb
      have o : ∀ x, over a.D x = some x := fun x => if_neg hD.ne'
      rw [show (likeDunkirk s a.D a.L Dr).hbC = lambdas (dunkirkHb a.D a.L Dr) from rfl,
        at_lambdas (o _) (o _) (o _) (o _), e]
      simp only [likeDunkirk, e', Option.bind_eq_bind, Option.bind_some]
      congr 2
      funext g
      exact hb_dunkirk_eq (X := a.X) hD hL.le hLD hr hr1 (o _) (o _) (o _) (o _)
    · unfold Custom.mb Dunkirk.mb
      have o : ∀ x, over a.D x = some x := fun x => if_neg hD.ne'
      rw [show (likeDunkirk s a.D a.L Dr).mbC = lambdas (dunkirkMb a.D a.L Dr) from rfl,
        at_lambdas rfl rfl rfl (o _), e]
      simp only [likeDunkirk, e', Option.bind_eq_bind, Option.bind_some]
      congr 2
      funext g
      exact mb_dunkirk_eq (X := a.X) hD hL.le hLD hr hr1 rfl rfl rfl (o _)

/-- **C38, clay.** A custom clay with the Cowden functions gives the p-y springs of Cowden clay down to 28
diameters, its m-t springs down to six diameters, its base shear for piles of up to 27 and its base moment
for piles of one to 9.5 diameters; where one fails the other does. -/
theorem C38_cowden_partial (s : PisaClay) (a : Args) (hk : s.kind = .cowden) (hS : Plain s.Su)
    (hG : Plain s.G0) (hD : 0 < a.D) (hX : 0 ≤ a.X) :
    (a.X ≤ 28 * a.D → (likeCowden s a.D a.L).py a = s.py a) ∧
    (a.X ≤ 6 * a.D → (likeCowden s a.D a.L).mt a = s.mt a) ∧
    (0 ≤ a.L → a.L ≤ 27 * a.D → (likeCowden s a.D a.L).hb a = s.hb a) ∧
    (a.D ≤ a.L → a.L ≤ 19 / 2 * a.D → (likeCowden s a.D a.L).mb a = s.mb a) := by
  have e' := valueAt_plain hG a.depth a.height a.X
  have eS := valueAt_plain hS a.depth a.height a.X
  have o : ∀ x, over a.D x = some x := fun x => if_neg hD.ne'
  have swap : ∀ (β : Type) (f : ℝ → ℝ → Option β),
      ((layered s.G0 a.depth a.height).bind fun g =>
        (layered s.Su a.depth a.height).bind fun u => f u g) =
      ((layered s.Su a.depth a.height).bind fun u =>
        (layered s.G0 a.depth a.height).bind fun g => f u g) := by
    intro β f
    cases layered s.G0 a.depth a.height <;> cases layered s.Su a.depth a.height <;> rfl
  have ep : a.X ≤ 28 * a.D → (likeCowden s a.D a.L).pyCurve a
      = (layered s.Su a.depth a.height).bind fun u => (layered s.G0 a.depth a.height).bind fun g =>
        s.pyCurve a u g := by
    intro h
    unfold Custom.pyCurve PisaClay.pyCurve
    rw [show (likeCowden s a.D a.L).pyC = lambdas (cowdenPy a.D) from rfl,
      at_lambdas (o _) (o _) rfl (o _)]
    simp only [likeCowden, e', eS, Option.bind_eq_bind, Option.bind_some, hk]
    rw [swap]
    congr 1
    funext u
    congr 1
    funext g
    exact py_cowden_eq hD hX h (o _) (o _) rfl (o _)
  refine ⟨?_, ?_, ?_, ?_⟩
  · intro h
    unfold Custom.py PisaClay.py
    rw [ep h]
    simp only [Option.bind_eq_bind, Option.bind_assoc]
    rfl
  · intro h
    unfold Custom.mt PisaClay.mt
    rw [ep (by linarith)]
    simp only [Option.bind_eq_bind, Option.bind_assoc]
    congr 1
    cases hu : layered s.Su a.depth a.height with
    | none => rfl
    | some u =>
      cases hg : layered s.G0 a.depth a.height with
      | none => rfl
      | some g =>
        simp only [Option.bind_some]
        congr 1
        funext l
        congr 1
        apply mapM_congr
        intro q _
        rw [show (likeCowden s a.D a.L).mtC = lambdas (cowdenMt a.D) from rfl,
          at_lambdas (o _) rfl (o _) (o _)]
        simp only [likeCowden, e', eS, hg, hu, hk, Option.bind_some]
        exact mt_cowden_eq hD hX h (o _) rfl (o _) (o _)
  · intro h0 h1
    unfold Custom.hb PisaClay.hb
    rw [show (likeCowden s a.D a.L).hbC = lambdas (cowdenHb a.D a.L) from rfl,
      at_lambdas (o _) (o _) rfl (o _)]
    simp only [likeCowden, e', eS, hk, Option.bind_eq_bind, Option.bind_some]
    rw [swap]
    congr 2
    funext u
    congr 1
    funext g
    exact hb_cowden_eq (X := a.X) hD h0 h1 (o _) (o _) rfl (o _)
  · intro h0 h1
    unfold Custom.mb PisaClay.mb
    rw [show (likeCowden s a.D a.L).mbC = lambdas (cowdenMb a.D a.L) from rfl,
      at_lambdas (o _) (o _) rfl (o _)]
    simp only [likeCowden, e', eS, hk, Option.bind_eq_bind, Option.bind_some]
    rw [swap]
    congr 2
    funext u
    congr 1
    funext g
    exact mb_cowden_eq (X := a.X) hD h0 h1 (o _) (o _) rfl (o _)

/-- A stiff clay with strength and stiffness varying over the layer. -/
noncomputable def demoClay : PisaClay :=
  { kind := .cowden, Su := .list [50, 100], G0 := .list [20000, 60000], p := .num 1, y := .num 1,
    m := .num 1, t := .num 1 }

/-- The hypotheses of both theorems hold for a pile of 5 m diameter and 20 m embedment, at 10 m depth. -/
example : Plain demoClay.Su ∧ Plain demoClay.G0 ∧ (0 : ℝ) < 5 ∧ (10 : ℝ) ≤ 6 * 5 ∧ (20 : ℝ) ≤ 6 * 5 ∧
    layered demoClay.G0 5 10 = some 40000 := by
  refine ⟨trivial, trivial, by norm_num, by norm_num, by norm_num, ?_⟩
  simp [demoClay, layered, topBottom]
  norm_num

/-! ## Where the two differ -/

/-- Without curvature a conic is defined everywhere. -/
theorem conic_straight {xu yu : ℝ} {len : ℕ} (hx : xu ≠ 0) (hy : yu ≠ 0) (h5 : 5 ≤ len) :
    ∃ l, conic xu 0 (yu / xu) yu len = some l := by
  unfold conic
  rw [if_neg (by push Not; exact ⟨hx, h5⟩)]
  simp only [max_self]
  have key : ∀ x, ∃ q, (conicY xu 0 (yu / xu) yu x).map (fun y => (x, y)) = some q := by
    intro x
    unfold conicY
    by_cases h1 : |x - xu| < 1 / 100
    · rw [if_pos h1]; exact ⟨_, rfl⟩
    · rw [if_neg h1]
      by_cases h2 : x < xu
      · rw [if_pos h2]
        simp only
        rw [if_neg (by push Not; exact ⟨hx, hy⟩)]
        have e : (2 * 0 * x / xu - (1 - 0) * (1 + x * (yu / xu) / yu)) ^ 2
            - 4 * (1 - 2 * 0) * (x * (yu / xu / yu) * (1 - 0) - 0 * (x ^ 2 / xu ^ 2))
            = (1 - x / xu) ^ 2 := by
          field_simp
          ring
        have e2 : -(2 * 0 * x / xu - (1 - 0) * (1 + x * (yu / xu) / yu)) = 1 + x / xu := by
          field_simp
          ring
        rw [e, e2, if_neg (not_lt.2 (sq_nonneg _)), Real.sqrt_sq_eq_abs]
        rw [if_neg]
        · exact ⟨_, rfl⟩
        · intro h0
          rcases le_total 0 (1 - x / xu) with hh | hh
          · rw [abs_of_nonneg hh] at h0; linarith
          · rw [abs_of_nonpos hh] at h0; linarith
      · rw [if_neg h2]; exact ⟨_, rfl⟩
  generalize conicX xu len = xs
  induction xs with
  | nil => exact ⟨[], rfl⟩
  | cons x xs ih =>
    obtain ⟨l, hl⟩ := ih
    obtain ⟨q, hq⟩ := key x
    exact ⟨q :: l, by rw [List.mapM_cons, hq, hl]; rfl⟩

/-- **C38 is violated for rotational springs of Cowden clay below 6.1 diameters.**  There the functions of
`hooks.py` are clamped and the native model is not: the native curve starts at a negative moment, the
custom one at a positive moment. -/
theorem C38_violated_mt {X Su G D : ℝ} {len : ℕ} (hD : 0 < D) (hS : 0 < Su) (hG : G ≠ 0) (h5 : 5 ≤ len)
    (h1 : 61 / 10 * D ≤ X) (h2 : X ≤ 146 / 10 * D) {k n xu yu : ℝ} (hk : (cowdenMt D).k X = some k)
    (hn : (cowdenMt D).n X = some n) (hxu : (cowdenMt D).X X = some xu)
    (hyu : (cowdenMt D).Y X = some yu) :
    ∃ native custom, mtCowden X Su G D len = some native ∧ mtCustomClay Su G D xu n k yu len = some custom ∧
      (∃ m, native.head? = some (0, m) ∧ m < 0) ∧ (∃ m, custom.head? = some (0, m) ∧ 0 < m) := by
  have hr0 : 61 / 10 ≤ X / D := (le_div_iff₀ hD).2 h1
  have hr1 : X / D ≤ 146 / 10 := (div_le_iff₀ hD).2 h2
  have hk0 : (11 / 1000 : ℝ) ≤ 1420 / 1000 + -9643 / 100000 * X / D := by rw [ratio]; linarith
  have hm : (2899 / 10000 + -4775 / 100000 * X / D : ℝ) < 0 := by rw [ratio]; linarith
  have hnat : ∃ l, mtCowden X Su G D len = some l := by
    unfold mtCowden
    simp only
    rw [if_neg (by push Not; exact ⟨hD.ne', hG⟩), if_neg (by linarith), zero_mul, zero_div, add_zero]
    unfold scaledConic
    obtain ⟨l, hl⟩ := conic_straight (len := len)
      (div_ne_zero hm.ne (by linarith : (1420 / 1000 + -9643 / 100000 * X / D : ℝ) ≠ 0)) hm.ne h5
    rw [div_div_cancel₀ hm.ne] at hl
    exact ⟨_, by rw [hl]; rfl⟩
  simp only [cowdenMt, over, if_neg hD.ne', Option.some.injEq] at hk hn hxu hyu
  have c1 : max (1 / 10000) (1420 / 1000 + -9643 / 100000 * X / D)
      = 1420 / 1000 + -9643 / 100000 * X / D := max_eq_right (by linarith)
  have c2 : max (1 / 10000) (2899 / 10000 + -4775 / 100000 * X / D) = (1 / 10000 : ℝ) :=
    max_eq_left (by linarith)
  rw [c1] at hk hxu
  rw [c2] at hxu hyu
  rw [hk] at hk0
  have hcus : ∃ l, mtCustomClay Su G D xu n k yu len = some l := by
    unfold mtCustomClay
    rw [if_neg hG]
    unfold scaledConic
    have hk1 : k ≠ 0 := by rw [← hk]; linarith
    have hy1 : yu ≠ 0 := by rw [← hyu]; norm_num
    obtain ⟨l, hl⟩ := conic_straight (xu := yu / k) (len := len) (div_ne_zero hy1 hk1) hy1 h5
    rw [div_div_cancel₀ hy1] at hl
    refine ⟨scale (Su / G) (Su * D ^ 2) l, ?_⟩
    rw [← hn, ← hxu, hyu, hk, hl]
    rfl
  obtain ⟨native, e1⟩ := hnat
  obtain ⟨custom, e2⟩ := hcus
  refine ⟨native, custom, e1, e2, C29_violated_mt_cowden hD hS h1 (by linarith) e1, ?_⟩
  unfold mtCustomClay at e2
  obtain ⟨_, c, hc, rfl⟩ := scaled_head (ite_none e2)
  have hk1 : 0 < k := by linarith
  have hx0 : 0 < xu := by rw [← hxu, hk]; positivity
  have hx : xu - 1 / 100 < 0 := by
    rw [sub_neg, ← hxu, hk, div_lt_iff₀ hk1]
    linarith
  obtain ⟨_, _, ⟨y0, h0⟩, _⟩ := C28_points hx0 hc
  have := near_ultimate hc (List.mem_of_head? h0) hx
  subst this
  refine ⟨y0 * (Su * D ^ 2), by simp [scale, h0], ?_⟩
  rw [← hyu]
  positivity

example : ∃ k n xu yu, (cowdenMt 5).k 40 = some k ∧ (cowdenMt 5).n 40 = some n ∧
    (cowdenMt 5).X 40 = some xu ∧ (cowdenMt 5).Y 40 = some yu ∧ (61 / 10 : ℝ) * 5 ≤ 40 ∧
    (40 : ℝ) ≤ 146 / 10 * 5 :=
  ⟨_, _, _, _, if_neg (by norm_num), rfl, if_neg (by norm_num), if_neg (by norm_num), by norm_num,
    by norm_num⟩

end OpenPile.Props.Custom

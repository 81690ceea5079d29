/-
Concrete cases for C29 and C83: every PISA curve function returns a curve for ordinary data, so that
the theorems about the curve it returns speak about something, and the cases in which a curve is
wrong do occur.
-/
import Verif.Props.Defined
import Verif.Props.PisaShape
import Verif.Props.StrongerPisa

namespace OpenPile.Cases.Pisa
open OpenPile.Conic OpenPile.Props.Defined OpenPile.Props.Stronger OpenPile.Spec.Sound

/-! ### the curves of ordinary soils -/

/-- `C29_py_cowden_partial` and `C29_shape_py_cowden_partial`: stiff clay of 100 kPa, 4 m below the
top of a pile of diameter 2 m. -/
example : ∃ l, pyCowden 4 100 20000 2 15 = some l ∧
    ReactionCurve 15 ((107 / 10 - 7101 / 1000 * Real.exp (-3085 / 10000 * 4 / 2)) * (100 * 2)) l ∧
    FollowsConic (Published.cowdenP (4 / 2)) (100 * 2 / 20000) (100 * 2) l :=
  (pyCowden_some (by norm_num) (by norm_num) (by norm_num) (by norm_num) (by norm_num)).imp fun _ h =>
    ⟨h.1, C29_py_cowden_partial (by norm_num) (by norm_num) (by norm_num) (by norm_num) (by norm_num) h.1,
      C29_shape_py_cowden_partial (by norm_num) (by norm_num) (by norm_num) h.1⟩

/-- `C29_py_bothkennar_partial` and `C29_shape_py_bothkennar_partial`. -/
example : ∃ l, pyBothkennar 4 30 9000 2 15 = some l ∧
    ReactionCurve 15 ((7743 / 1000 - 3945 / 1000 * Real.exp (-8456 / 10000 * 4 / 2)) * (30 * 2)) l ∧
    FollowsConic (Published.bothkennarP (4 / 2)) (30 * 2 / 9000) (30 * 2) l :=
  (pyBothkennar_some (by norm_num) (by norm_num) (by norm_num) (by norm_num) (by norm_num)).imp fun _ h =>
    ⟨h.1, C29_py_bothkennar_partial (by norm_num) (by norm_num) (by norm_num) (by norm_num) (by norm_num) h.1,
      C29_shape_py_bothkennar_partial (by norm_num) (by norm_num) (by norm_num) h.1⟩

/-- `C29_mt_cowden_partial` and `C29_shape_mt_cowden_partial`. -/
example : ∃ l, mtCowden 4 100 20000 2 15 = some l ∧
    ReactionCurve 15 ((2899 / 10000 - 4775 / 100000 * (4 / 2)) * (100 * 2 ^ 2)) l ∧
    FollowsConic (Published.cowdenM (4 / 2)) (100 / 20000) (100 * 2 ^ 2) l :=
  (mtCowden_some (by norm_num) (by norm_num) (by norm_num) (by norm_num) (by norm_num)).imp fun _ h =>
    ⟨h.1, C29_mt_cowden_partial (by norm_num) (by norm_num) (by norm_num) (by norm_num) (by norm_num) h.1,
      C29_shape_mt_cowden_partial (by norm_num) (by norm_num) (by norm_num) h.1⟩

/-- `C29_mt_bothkennar_partial` and `C29_shape_mt_bothkennar_partial`. -/
example : ∃ l, mtBothkennar 4 30 9000 2 15 = some l ∧
    ReactionCurve 15 ((4862 / 10000 - 5674 / 100000 * (4 / 2)) * (30 * 2 ^ 2)) l ∧
    FollowsConic (Published.bothkennarM (4 / 2)) (30 / 9000) (30 * 2 ^ 2) l :=
  (mtBothkennar_some (by norm_num) (by norm_num) (by norm_num) (by norm_num) (by norm_num)).imp fun _ h =>
    ⟨h.1, C29_mt_bothkennar_partial (by norm_num) (by norm_num) (by norm_num) (by norm_num) (by norm_num) h.1,
      C29_shape_mt_bothkennar_partial (by norm_num) (by norm_num) (by norm_num) h.1⟩

/-- `C29_hb_cowden_partial` and `C29_shape_hb_cowden_partial`. -/
example : ∃ l, hbCowden 100 20000 2 8 15 = some l ∧
    ReactionCurve 15 ((4038 / 10000 + 4812 / 100000 * (8 / 2)) * (100 * 2 ^ 2)) l ∧
    FollowsConic (Published.cowdenH (8 / 2)) (100 * 2 / 20000) (100 * 2 ^ 2) l :=
  (hbCowden_some (by norm_num) (by norm_num) ⟨by norm_num, by norm_num⟩ (by norm_num)).imp fun _ h =>
    ⟨h.1, C29_hb_cowden_partial (by norm_num) (by norm_num) (by norm_num) (by norm_num) (by norm_num) h.1,
      C29_shape_hb_cowden_partial (by norm_num) (by norm_num) (by norm_num) h.1⟩

/-- `C29_hb_bothkennar_partial` and `C29_shape_hb_bothkennar_partial`. -/
example : ∃ l, hbBothkennar 30 9000 2 8 15 = some l ∧
    ReactionCurve 15 ((5279 / 10000 + 6864 / 100000 * (8 / 2)) * (30 * 2 ^ 2)) l ∧
    FollowsConic (Published.bothkennarH (8 / 2)) (30 * 2 / 9000) (30 * 2 ^ 2) l :=
  (hbBothkennar_some (by norm_num) (by norm_num) ⟨by norm_num, by norm_num⟩ (by norm_num)).imp fun _ h =>
    ⟨h.1, C29_hb_bothkennar_partial (by norm_num) (by norm_num) (by norm_num) (by norm_num) (by norm_num) h.1,
      C29_shape_hb_bothkennar_partial (by norm_num) (by norm_num) (by norm_num) h.1⟩

/-- `C29_mb_cowden_partial` and `C29_shape_mb_cowden_partial`. -/
example : ∃ l, mbCowden 100 20000 2 8 15 = some l ∧
    ReactionCurve 15 ((8192 / 10000 - 8588 / 100000 * (8 / 2)) * (100 * 2 ^ 3)) l ∧
    FollowsConic (Published.cowdenB (8 / 2)) (100 / 20000) (100 * 2 ^ 3) l :=
  (mbCowden_some (by norm_num) (by norm_num) ⟨by norm_num, by norm_num⟩ (by norm_num)).imp fun _ h =>
    ⟨h.1, C29_mb_cowden_partial (by norm_num) (by norm_num) (by norm_num) (by norm_num) (by norm_num) h.1,
      C29_shape_mb_cowden_partial (by norm_num) (by norm_num) (by norm_num) h.1⟩

/-- `C29_mb_bothkennar_partial` and `C29_shape_mb_bothkennar_partial`. -/
example : ∃ l, mbBothkennar 30 9000 2 8 15 = some l ∧
    ReactionCurve 15 ((8756 / 10000 - 9195 / 100000 * (8 / 2)) * (30 * 2 ^ 3)) l ∧
    FollowsConic (Published.bothkennarB (8 / 2)) (30 / 9000) (30 * 2 ^ 3) l :=
  (mbBothkennar_some (by norm_num) (by norm_num) ⟨by norm_num, by norm_num⟩ (by norm_num)).imp fun _ h =>
    ⟨h.1, C29_mb_bothkennar_partial (by norm_num) (by norm_num) (by norm_num) (by norm_num) (by norm_num) h.1,
      C29_shape_mb_bothkennar_partial (by norm_num) (by norm_num) (by norm_num) h.1⟩

/-- `C29_py_dunkirk` and `C29_shape_py_dunkirk`: loose sand under 40 kPa. -/
example : ∃ l, pyDunkirk 40 4 40 50000 2 8 15 = some l ∧
    ReactionCurve (max 8 15) ((3667 / 10000 + 2589 / 100 * (40 / 100) +
      (3375 / 10000 - 89 / 10 * (40 / 100)) * (4 / 8)) * (40 * 2)) l ∧
    FollowsConic (Published.dunkirkP (40 / 100) (4 / 2) (4 / 8)) (40 * 2 / 50000) (40 * 2) l :=
  (pyDunkirk_some (by norm_num) (by norm_num) (by norm_num) ⟨by norm_num, by norm_num⟩ (by norm_num)
    (by norm_num) (by norm_num) rfl).imp fun _ h =>
    ⟨h.1, C29_py_dunkirk (by norm_num) (by norm_num) (by norm_num) (by norm_num) (by norm_num) (by norm_num)
      (by norm_num) (by norm_num) h.1,
      C29_shape_py_dunkirk (by norm_num) (by norm_num) (by norm_num) (by norm_num) (by norm_num) h.1⟩

/-- `C29_mt_dunkirk_partial` and `C29_shape_mt_dunkirk`: near the top of the pile the normalised
moment is large enough. -/
example : ∃ l, mtDunkirk 40 1 40 50000 (-300) 2 8 15 = some l ∧
    ReactionCurve 15 (mtDunkirkMax 1 40 8 * (|(-300)| * 2)) l ∧
    FollowsConic (Published.dunkirkM (40 / 100) (1 / 8)) (40 / 50000) (|(-300)| * 2) l :=
  (mtDunkirk_some (by norm_num) (by norm_num) (by norm_num) (by norm_num) (by norm_num) (by norm_num)
    (by norm_num)).imp fun _ h =>
    ⟨h.1, C29_mt_dunkirk_partial (by norm_num) (by norm_num) (by norm_num) (by norm_num)
      (by norm_num [mtDunkirkMax]) h.1,
      C29_shape_mt_dunkirk (by norm_num) (by norm_num) (by norm_num) (by norm_num) h.1⟩

/-- `C29_hb_dunkirk_partial` and `C29_shape_hb_dunkirk_partial`. -/
example : ∃ l, hbDunkirk 40 40 50000 2 8 15 = some l ∧
    ReactionCurve 15 ((9952 / 100000 + 7996 / 10000 * (40 / 100)
      + (3988 / 100000 - 1606 / 10000 * (40 / 100)) * (8 / 2)) * (40 * 2 ^ 2)) l ∧
    FollowsConic (Published.dunkirkH (40 / 100) (8 / 2)) (40 * 2 / 50000) (40 * 2 ^ 2) l :=
  (hbDunkirk_some (by norm_num) (by norm_num) ⟨by norm_num, by norm_num⟩ (by norm_num) (by norm_num)
    (by norm_num)).imp fun _ h =>
    ⟨h.1, C29_hb_dunkirk_partial (by norm_num) (by norm_num) (by norm_num) (by norm_num) (by norm_num)
      (by norm_num) (by norm_num) h.1,
      C29_shape_hb_dunkirk_partial (by norm_num) (by norm_num) (by norm_num) (by norm_num) (by norm_num) h.1⟩

/-- `C29_mb_dunkirk_partial` and `C29_shape_mb_dunkirk_partial`. -/
example : ∃ l, mbDunkirk 40 40 50000 2 8 15 = some l ∧
    ReactionCurve 15 ((9981 / 100000 + 3710 / 10000 * (40 / 100)
      + (1998 / 100000 - 9041 / 100000 * (40 / 100)) * (8 / 2)) * (40 * 2 ^ 3)) l ∧
    FollowsConic (Published.dunkirkB (40 / 100) (8 / 2)) (40 / 50000) (40 * 2 ^ 3) l :=
  (mbDunkirk_some (by norm_num) (by norm_num) ⟨by norm_num, by norm_num⟩ (by norm_num) (by norm_num)
    (by norm_num)).imp fun _ h =>
    ⟨h.1, C29_mb_dunkirk_partial (by norm_num) (by norm_num) (by norm_num) (by norm_num) (by norm_num)
      (by norm_num) (by norm_num) h.1,
      C29_shape_mb_dunkirk_partial (by norm_num) (by norm_num) (by norm_num) (by norm_num) (by norm_num) h.1⟩

/-- The custom curves: one conic serves all eight functions. -/
theorem custom (sx sy : ℝ) : ∃ l, scaledConic 100 (1 / 2) (1 / 10) 5 sx sy 15 = some l :=
  (moderate (by norm_num) (by norm_num) (by norm_num) (by norm_num) sx sy (by norm_num)).imp fun _ h => h.1

/-- `C29_custom_partial` and `C29_shape_custom`, the p-y curve of a custom sand. -/
example : ∃ l, pyCustomSand 40 50000 2 100 (1 / 2) (1 / 10) 5 15 = some l ∧
    ReactionCurve 15 (5 * (40 * 2)) l ∧
    FollowsConic ⟨100, 1 / 2, 1 / 10, 5⟩ (40 * 2 / 50000) (40 * 2) l := by
  obtain ⟨l, h⟩ := custom (40 * 2 / 50000) (40 * 2)
  have h' : pyCustomSand 40 50000 2 100 (1 / 2) (1 / 10) 5 15 = some l := by
    unfold pyCustomSand
    rw [if_neg (by norm_num)]
    exact h
  exact ⟨l, h', (C29_custom_partial (p := 0) (by norm_num) (by norm_num) (by norm_num) (by norm_num)
    (by norm_num) (by norm_num) (by norm_num) (by norm_num)).1 h',
    (C29_shape_custom (p := 0) (c := ⟨100, 1 / 2, 1 / 10, 5⟩) (by norm_num) (by norm_num) (by norm_num)
      (by norm_num)).1 h'⟩

/-- `C29_custom_partial`, the m-t curve of a custom sand and the base moment curve of a custom clay. -/
example : (∃ l, mtCustomSand 40 50000 300 2 100 (1 / 2) (1 / 10) 5 15 = some l ∧
      ReactionCurve 15 (5 * (300 * 2)) l) ∧
    ∃ l, mbCustomClay 100 50000 2 100 (1 / 2) (1 / 10) 5 15 = some l ∧
      ReactionCurve 15 (5 * (100 * 2 ^ 3)) l := by
  obtain ⟨l, h⟩ := custom (40 / 50000) (300 * 2)
  obtain ⟨m, g⟩ := custom (100 / 50000) (100 * 2 ^ 3)
  have h' : mtCustomSand 40 50000 300 2 100 (1 / 2) (1 / 10) 5 15 = some l := by
    unfold mtCustomSand
    rw [if_neg (by norm_num)]
    exact h
  have g' : mbCustomClay 100 50000 2 100 (1 / 2) (1 / 10) 5 15 = some m := by
    unfold mbCustomClay
    rw [if_neg (by norm_num)]
    exact g
  exact ⟨⟨l, h', (C29_custom_partial (by norm_num) (by norm_num) (by norm_num) (by norm_num)
    (by norm_num) (by norm_num) (by norm_num) (by norm_num)).2.2.1 h'⟩,
    ⟨m, g', (C29_custom_partial (p := 0) (by norm_num) (by norm_num) (by norm_num) (by norm_num)
    (by norm_num) (by norm_num) (by norm_num) (by norm_num)).2.2.2.2.2.2.2 g'⟩⟩

/-- `C29_zero_scaling`: soil of no strength at the ground surface. -/
example : ∃ l, pyCowden 0 0 20000 2 15 = some l ∧ ∀ q ∈ l, q.2 = 0 :=
  (pyCowden_some (by norm_num) (by norm_num) (by norm_num) (by norm_num) (by norm_num)).imp fun _ h =>
    ⟨h.1, C29_zero_scaling (Dr := 0) (L := 0) (p := 0) (sig := 0) (Or.inr (Or.inl h.1))⟩

/-! ### stronger soils -/

/-- `C83_py_bothkennar_partial`. -/
example : ∃ l l', pyBothkennar 4 30 9000 2 15 = some l ∧ pyBothkennar 4 50 15000 2 15 = some l' ∧ Outresists l l' := by
  obtain ⟨l, h, -⟩ := pyBothkennar_some (X := 4) (Su := 30) (G0 := 9000) (D := 2) (len := 15) (by norm_num) (by norm_num) (by norm_num) (by norm_num) (by norm_num)
  obtain ⟨l', h', -⟩ := pyBothkennar_some (X := 4) (Su := 50) (G0 := 15000) (D := 2) (len := 15) (by norm_num) (by norm_num) (by norm_num) (by norm_num) (by norm_num)
  exact ⟨l, l', h, h', C83_py_bothkennar_partial (by norm_num) (by norm_num) (by norm_num) (by norm_num) (by norm_num)
    (by norm_num) (by norm_num) (by norm_num) h h'⟩

/-- `C83_py_cowden_partial`. -/
example : ∃ l l', pyCowden 4 100 20000 2 15 = some l ∧ pyCowden 4 150 30000 2 15 = some l' ∧ Outresists l l' := by
  obtain ⟨l, h, -⟩ := pyCowden_some (X := 4) (Su := 100) (G0 := 20000) (D := 2) (len := 15) (by norm_num) (by norm_num) (by norm_num) (by norm_num) (by norm_num)
  obtain ⟨l', h', -⟩ := pyCowden_some (X := 4) (Su := 150) (G0 := 30000) (D := 2) (len := 15) (by norm_num) (by norm_num) (by norm_num) (by norm_num) (by norm_num)
  exact ⟨l, l', h, h', C83_py_cowden_partial (by norm_num) (by norm_num) (by norm_num) (by norm_num) (by norm_num)
    (by norm_num) (by norm_num) (by norm_num) h h'⟩

/-- `C83_mt_bothkennar_partial`: a table of 15 points is fine enough near the top. -/
example : ∃ l l', mtBothkennar 4 30 9000 2 15 = some l ∧ mtBothkennar 4 50 15000 2 15 = some l' ∧ Outresists l l' := by
  obtain ⟨l, h, -⟩ := mtBothkennar_some (X := 4) (Su := 30) (G0 := 9000) (D := 2) (len := 15) (by norm_num) (by norm_num) (by norm_num) (by norm_num) (by norm_num)
  obtain ⟨l', h', -⟩ := mtBothkennar_some (X := 4) (Su := 50) (G0 := 15000) (D := 2) (len := 15) (by norm_num) (by norm_num) (by norm_num) (by norm_num) (by norm_num)
  exact ⟨l, l', h, h', C83_mt_bothkennar_partial (by norm_num) (by norm_num) (by norm_num) (by norm_num) (by norm_num)
    (by norm_num) (by norm_num) (by norm_num) h h'⟩

/-- `C83_mt_cowden_partial`. -/
example : ∃ l l', mtCowden 2 100 20000 2 15 = some l ∧ mtCowden 2 150 30000 2 15 = some l' ∧ Outresists l l' := by
  obtain ⟨l, h, -⟩ := mtCowden_some (X := 2) (Su := 100) (G0 := 20000) (D := 2) (len := 15) (by norm_num) (by norm_num) (by norm_num) (by norm_num) (by norm_num)
  obtain ⟨l', h', -⟩ := mtCowden_some (X := 2) (Su := 150) (G0 := 30000) (D := 2) (len := 15) (by norm_num) (by norm_num) (by norm_num) (by norm_num) (by norm_num)
  exact ⟨l, l', h, h', C83_mt_cowden_partial (by norm_num) (by norm_num) (by norm_num) (by norm_num) (by norm_num)
    (by norm_num) (by norm_num) (by norm_num) h h'⟩

/-- `C83_hb_cowden_partial`. -/
example : ∃ l l', hbCowden 100 20000 2 8 15 = some l ∧ hbCowden 150 30000 2 8 15 = some l' ∧ Outresists l l' := by
  obtain ⟨l, h, -⟩ := hbCowden_some (Su := 100) (G0 := 20000) (D := 2) (L := 8) (len := 15) (by norm_num) (by norm_num)
    ⟨by norm_num, by norm_num⟩ (by norm_num)
  obtain ⟨l', h', -⟩ := hbCowden_some (Su := 150) (G0 := 30000) (D := 2) (L := 8) (len := 15) (by norm_num) (by norm_num)
    ⟨by norm_num, by norm_num⟩ (by norm_num)
  exact ⟨l, l', h, h', C83_hb_cowden_partial (by norm_num) (by norm_num) (by norm_num) (by norm_num) (by norm_num)
    (by norm_num) (by norm_num) (by norm_num) h h'⟩

/-- `C83_mb_cowden_partial`. -/
example : ∃ l l', mbCowden 100 20000 2 8 15 = some l ∧ mbCowden 150 30000 2 8 15 = some l' ∧ Outresists l l' := by
  obtain ⟨l, h, -⟩ := mbCowden_some (Su := 100) (G0 := 20000) (D := 2) (L := 8) (len := 15) (by norm_num) (by norm_num)
    ⟨by norm_num, by norm_num⟩ (by norm_num)
  obtain ⟨l', h', -⟩ := mbCowden_some (Su := 150) (G0 := 30000) (D := 2) (L := 8) (len := 15) (by norm_num) (by norm_num)
    ⟨by norm_num, by norm_num⟩ (by norm_num)
  exact ⟨l, l', h, h', C83_mb_cowden_partial (by norm_num) (by norm_num) (by norm_num) (by norm_num) (by norm_num)
    (by norm_num) (by norm_num) (by norm_num) h h'⟩

/-- `C83_mb_bothkennar_partial`. -/
example : ∃ l l', mbBothkennar 30 9000 2 8 15 = some l ∧ mbBothkennar 50 15000 2 8 15 = some l' ∧ Outresists l l' := by
  obtain ⟨l, h, -⟩ := mbBothkennar_some (Su := 30) (G0 := 9000) (D := 2) (L := 8) (len := 15) (by norm_num) (by norm_num)
    ⟨by norm_num, by norm_num⟩ (by norm_num)
  obtain ⟨l', h', -⟩ := mbBothkennar_some (Su := 50) (G0 := 15000) (D := 2) (L := 8) (len := 15) (by norm_num) (by norm_num)
    ⟨by norm_num, by norm_num⟩ (by norm_num)
  exact ⟨l, l', h, h', C83_mb_bothkennar_partial (by norm_num) (by norm_num) (by norm_num) (by norm_num) (by norm_num)
    (by norm_num) (by norm_num) (by norm_num) h h'⟩

/-- `C83_py_dunkirk_partial` and `C83_py_dunkirk_ultimate`: deeper, and at the same depth denser, sand. -/
example : ∃ l l' l'', pyDunkirk 40 4 30 50000 2 8 15 = some l ∧ pyDunkirk 60 4 30 80000 2 8 15 = some l' ∧
    pyDunkirk 40 4 50 50000 2 8 15 = some l'' ∧ Outresists l l' ∧
    ∃ q q'', l.getLast? = some q ∧ l''.getLast? = some q'' ∧ q.2 ≤ q''.2 := by
  have s : Slender 2 8 := ⟨by norm_num, by norm_num⟩
  obtain ⟨l, h, -⟩ := pyDunkirk_some (sig := 40) (X := 4) (Dr := 30) (G0 := 50000) (by norm_num) (by norm_num) (by norm_num) s (by norm_num) (by norm_num) (by norm_num) rfl
  obtain ⟨l', h', -⟩ := pyDunkirk_some (sig := 60) (X := 4) (Dr := 30) (G0 := 80000) (by norm_num) (by norm_num) (by norm_num) s (by norm_num) (by norm_num) (by norm_num) rfl
  obtain ⟨l'', h'', -⟩ := pyDunkirk_some (sig := 40) (X := 4) (Dr := 50) (G0 := 50000) (by norm_num) (by norm_num) (by norm_num) s (by norm_num) (by norm_num) (by norm_num) rfl
  exact ⟨l, l', l'', h, h', h'', C83_py_dunkirk_partial (by norm_num) (by norm_num) (by norm_num) (by norm_num) (by norm_num)
    (by norm_num) (by norm_num) (by norm_num) (by norm_num) (by norm_num) (by norm_num) h h',
    C83_py_dunkirk_ultimate (by norm_num) (by norm_num) (by norm_num) (by norm_num) (by norm_num)
      (by norm_num) (by norm_num) (by norm_num) (by norm_num) (by norm_num) (by norm_num) h h''⟩

/-- `C83_custom_partial`, the p-y curve of a custom sand. -/
example : ∃ l l', pyCustomSand 40 50000 2 100 (1 / 2) (1 / 10) 5 15 = some l ∧
    pyCustomSand 60 80000 2 100 (1 / 2) (1 / 10) 5 15 = some l' ∧ Outresists l l' := by
  obtain ⟨l, h⟩ := custom (40 * 2 / 50000) (40 * 2)
  obtain ⟨l', h'⟩ := custom (60 * 2 / 80000) (60 * 2)
  have e : pyCustomSand 40 50000 2 100 (1 / 2) (1 / 10) 5 15 = some l := by
    unfold pyCustomSand
    rw [if_neg (by norm_num)]
    exact h
  have e' : pyCustomSand 60 80000 2 100 (1 / 2) (1 / 10) 5 15 = some l' := by
    unfold pyCustomSand
    rw [if_neg (by norm_num)]
    exact h'
  exact ⟨l, l', e, e', (C83_custom_partial (by norm_num) (by norm_num) (by norm_num) (by norm_num) (by norm_num)
    (by norm_num) (by norm_num) (by norm_num) (by norm_num) (by norm_num)).1 e e'⟩

/-! ### the curves that are wrong -/

theorem neg_x {xu x : ℝ} {len : ℕ} (h0 : xu < 0) (hx : x ∈ conicX xu len) : 11 / 10 * xu ≤ x := by
  unfold conicX at hx
  simp only [List.mem_append, List.mem_cons, List.not_mem_nil, or_false] at hx
  rcases hx with (h | h) | h
  · rcases h with h | h | h | h <;> subst h <;> linarith
  · unfold linspace at h
    split_ifs at h with e
    · simp only [List.mem_cons, List.not_mem_nil, or_false] at h
      linarith
    · rw [List.mem_map] at h
      obtain ⟨i, hi, rfl⟩ := h
      have hi' := List.mem_range.1 hi
      have hn : 2 ≤ len - 5 := by omega
      have h1 : (0 : ℝ) < ((len - 5 : ℕ) : ℝ) - 1 := by
        have : (2 : ℝ) ≤ ((len - 5 : ℕ) : ℝ) := by exact_mod_cast hn
        linarith
      have h2 : (i : ℝ) ≤ ((len - 5 : ℕ) : ℝ) - 1 := by
        have : (i : ℝ) + 1 ≤ ((len - 5 : ℕ) : ℝ) := by exact_mod_cast hi'
        linarith
      have h3 : (i : ℝ) * ((xu - 2 / 10 * xu) / (((len - 5 : ℕ) : ℝ) - 1)) =
          (i / (((len - 5 : ℕ) : ℝ) - 1)) * (8 / 10 * xu) := by ring
      have h4 : (i : ℝ) / (((len - 5 : ℕ) : ℝ) - 1) ≤ 1 := (div_le_one h1).2 h2
      rw [h3]
      nlinarith
  · linarith

/-- A conic of small negative end displacement is flat: every abscissa lies beyond it or next to it. -/
theorem flat {xu n k yu sx sy : ℝ} {len : ℕ} (h0 : xu < 0) (h1 : -(1 / 10) < xu) (h5 : 5 ≤ len) :
    ∃ l, scaledConic xu n k yu sx sy len = some l := by
  have h : ∃ l, conic xu n k yu len = some l := by
    unfold conic
    rw [if_neg (by push Not; exact ⟨h0.ne, h5⟩)]
    refine mapM_some fun x hx => ⟨(x, yu), ?_⟩
    have hb := neg_x h0 hx
    unfold conicY
    by_cases c : |x - xu| < 1 / 100
    · rw [if_pos c]; rfl
    · rw [if_neg c, if_neg]
      · rfl
      · intro hlt
        refine c (abs_lt.2 ⟨by linarith, by linarith⟩)
  obtain ⟨l, h⟩ := h
  exact ⟨_, by unfold scaledConic; rw [h]; rfl⟩

/-- `C29_violated_mt_bothkennar`: soft clay nine diameters down. -/
example : ∃ l m, mtBothkennar 9 30 9000 1 15 = some l ∧ l.head? = some (0, m) ∧ m < 0 := by
  have h : ∃ l, mtBothkennar 9 30 9000 1 15 = some l := by
    unfold mtBothkennar
    rw [if_neg (by norm_num)]
    simp only
    rw [if_neg (by norm_num)]
    exact flat (by norm_num) (by norm_num) (by norm_num)
  obtain ⟨l, h⟩ := h
  obtain ⟨m, h1, h2⟩ := C29_violated_mt_bothkennar (by norm_num) (by norm_num) (by norm_num) (by norm_num) h
  exact ⟨l, m, h, h1, h2⟩

/-- `C29_violated_mt_cowden`: stiff clay seven diameters down. -/
example : ∃ l m, mtCowden 7 100 20000 1 15 = some l ∧ l.head? = some (0, m) ∧ m < 0 := by
  have h : ∃ l, mtCowden 7 100 20000 1 15 = some l := by
    unfold mtCowden
    rw [if_neg (by norm_num)]
    simp only
    rw [if_neg (by norm_num)]
    exact flat (by norm_num) (by norm_num) (by norm_num)
  obtain ⟨l, h⟩ := h
  obtain ⟨m, h1, h2⟩ := C29_violated_mt_cowden (by norm_num) (by norm_num) (by norm_num) (by norm_num) h
  exact ⟨l, m, h, h1, h2⟩

/-- `C29_violated_mt_dunkirk`: loose sand near the tip. -/
example : ∃ l M, mtDunkirk 40 7 40 50000 300 2 8 15 = some l ∧ l.head? = some (0, M) ∧ 0 < M := by
  obtain ⟨l, h, -⟩ := mtDunkirk_some (sig := 40) (X := 7) (Dr := 40) (G0 := 50000) (p := 300) (D := 2) (L := 8)
    (len := 15) (by norm_num) (by norm_num) (by norm_num) (by norm_num) (by norm_num) (by norm_num) (by norm_num)
  exact ⟨l, _, h, C29_violated_mt_dunkirk (by norm_num) (by norm_num) (by norm_num) (by norm_num [mtDunkirkMax])
    (by norm_num [mtDunkirkMax]) h⟩

/-- `C29_violated_hb_dunkirk`: a pile of six and a half diameters in sand of full density. -/
example : ∃ l H, hbDunkirk 40 100 50000 2 13 15 = some l ∧ l.head? = some (0, H) ∧ 0 < H := by
  have h : ∃ l, hbDunkirk 40 100 50000 2 13 15 = some l := by
    unfold hbDunkirk
    simp only
    rw [if_neg (by norm_num)]
    exact flat (by norm_num) (by norm_num) (by norm_num)
  obtain ⟨l, h⟩ := h
  obtain ⟨m, h1, h2⟩ := C29_violated_hb_dunkirk (by norm_num) (by norm_num) (by norm_num) (by norm_num) h
  exact ⟨l, m, h, h1, h2⟩

theorem pos_x {xu x : ℝ} {len : ℕ} (h0 : 0 < xu) (hx : x ∈ conicX xu len) : x = 0 ∨ 2 / 100 * xu ≤ x := by
  unfold conicX at hx
  simp only [List.mem_append, List.mem_cons, List.not_mem_nil, or_false] at hx
  rcases hx with (h | h) | h
  · rcases h with h | h | h | h <;> subst h
    · left; ring
    all_goals right; linarith
  · right
    have := (linspace_mem (a := 2 / 10 * xu) (b := xu) (by linarith) h).1
    linarith
  · right; linarith

/-- An ordinate exists where the quadratic has real roots and is not degenerate. -/
theorem ordinate {xu n k yu x : ℝ} (hx : xu ≠ 0) (hy : yu ≠ 0)
    (h : ∀ a b c, a = 1 - 2 * n → b = 2 * n * x / xu - (1 - n) * (1 + x * k / yu) →
      c = x * (k / yu) * (1 - n) - n * (x ^ 2 / xu ^ 2) → 0 ≤ b ^ 2 - 4 * a * c ∧ (b < 0 ∨ a * c ≠ 0)) :
    ∃ y, conicY xu n k yu x = some y := by
  obtain ⟨h1, h2⟩ := h _ _ _ rfl rfl rfl
  unfold conicY
  by_cases c1 : |x - xu| < 1 / 100
  · rw [if_pos c1]; exact ⟨_, rfl⟩
  by_cases c2 : x < xu
  · rw [if_neg c1, if_pos c2]
    dsimp only
    rw [if_neg (by push Not; exact ⟨hx, hy⟩), if_neg h1.not_gt, if_neg]
    · exact ⟨_, rfl⟩
    · intro e
      generalize 2 * n * x / xu - (1 - n) * (1 + x * k / yu) = b at *
      generalize x * (k / yu) * (1 - n) - n * (x ^ 2 / xu ^ 2) = c at *
      have hs := Real.sqrt_nonneg (b ^ 2 - 4 * (1 - 2 * n) * c)
      rcases h2 with h2 | h2
      · linarith
      · have hq := Real.sq_sqrt h1
        have e' : Real.sqrt (b ^ 2 - 4 * (1 - 2 * n) * c) = b := by linarith
        rw [e'] at hq
        exact h2 (by linarith)
  · rw [if_neg c1, if_neg c2]; exact ⟨_, rfl⟩

/-- `C29_violated_mb_dunkirk`: a pile of seven diameters in sand of full density. -/
example : ∃ l x M, mbDunkirk 40 100 50000 1 7 15 = some l ∧ l.getLast? = some (x, M) ∧ M < 0 := by
  have h : ∃ l, mbDunkirk 40 100 50000 1 7 15 = some l := by
    unfold mbDunkirk
    dsimp only
    rw [if_neg (by norm_num)]
    have h : ∃ l, conic (4489 / 100) (3 / 10 + 4986 / 10000 * (100 / 100)) (3515 / 10000 + 0 * 7 / 1)
        (9981 / 100000 + 3710 / 10000 * (100 / 100) + (1998 / 100000 - 9041 / 100000 * (100 / 100)) * 7 / 1) 15 =
        some l := by
      unfold conic
      rw [if_neg (by norm_num)]
      dsimp only
      refine mapM_some fun x hx => ?_
      have hb := pos_x (by norm_num) hx
      rw [max_eq_right (by norm_num)]
      obtain ⟨y, hy⟩ := ordinate (xu := 4489 / 100) (n := 3 / 10 + 4986 / 10000 * (100 / 100))
        (k := 3515 / 10000 + 0 * 7 / 1) (yu := 9981 / 100000 + 3710 / 10000 * (100 / 100) +
          (1998 / 100000 - 9041 / 100000 * (100 / 100)) * 7 / 1) (x := x) (by norm_num) (by norm_num) (by
          intro a b c ha hb' hc
          norm_num at ha hb' hc
          rcases hb with rfl | hb
          · norm_num at hb' hc
            subst ha hb' hc
            norm_num
          · have hc' : c = -(x * (3515 * 1007 / (5 * 222)) / 1000 ) - 3993 / 5000 * (x / (4489 / 100)) ^ 2 := by
              rw [hc]; ring
            have hb'' : b = (2 * (3993 / 5000) / (4489 / 100) + 3515 * 1007 / (5 * 222) / 1000) * x - 1007 / 5000 := by
              rw [hb']; ring
            have c0 : c < 0 := by rw [hc']; nlinarith
            refine ⟨?_, Or.inr (mul_ne_zero (by rw [ha]; norm_num) c0.ne)⟩
            rw [ha, hb'', hc']
            nlinarith)
      exact ⟨_, by rw [hy]; rfl⟩
    obtain ⟨l, h⟩ := h
    exact ⟨_, by unfold scaledConic; rw [h]; rfl⟩
  obtain ⟨l, h⟩ := h
  obtain ⟨x, m, h1, h2⟩ := C29_violated_mb_dunkirk (by norm_num) (by norm_num) (by norm_num) h
  exact ⟨l, x, m, h, h1, h2⟩

end OpenPile.Cases.Pisa

/-
Property C60, rotational springs along the shaft: the analysis is the linear one while the springs stay in their
first branch if the rotational springs do not depend on the mobilised lateral resistance; it is not if they do.
-/
import Verif.Props.LinearRange
import Verif.Props.Mirror

namespace OpenPile.Props.LinearRange
open OpenPile.Kernel OpenPile.Winkler OpenPile.Spring OpenPile.Spec.Kernel OpenPile.Props.SoilStiffness
open OpenPile.Props.Winkler OpenPile.Props.Solve OpenPile.Props.Spring OpenPile.Props.Mirror Matrix

variable {K : Type} [Field K] [LinearOrder K] [IsStrictOrderedRing K]

/-- A rotational table whose rows are all the same curve, starting at the origin and ascending, with the rotation
`t` not beyond its second point. -/
def FirstBranchMt (rows : MtTable K) (ncol : ℕ) (t : K) : Prop :=
  ∃ t1 m1 rest, rows ≠ [] ∧ (∀ r ∈ rows, r.2 = (0, 0) :: (t1, m1) :: rest) ∧ ncol = rest.length + 2 ∧
    Asc ((0, 0) :: (t1, m1) :: rest) ∧ |t| ≤ t1

/-- The curve used is the one of the rows. -/
theorem mtCurve_rows (rows : MtTable K) (row : List (K × K)) (ncol : ℕ) (hne : rows ≠ [])
    (hrow : ∀ r ∈ rows, r.2 = row) (hn : ncol = row.length) (h1 : 1 ≤ ncol) (h0 : row[0]? = some (0, 0)) (p : K) :
    mtCurve rows ncol p = some row := by
  obtain ⟨r0, rows', rfl⟩ := List.exists_cons_of_ne_nil hne
  rw [mtCurve_same (r0 :: rows') ⟨row, hrow⟩ ncol p r0.1]
  have hcol : ∀ (pick : K × K → K) (c : ℕ) (z : K × K), row[c]? = some z →
      ∃ ms, (r0 :: rows').mapM (fun r => (r.2[c]?).map (fun q => (r.1, pick q))) = some ms ∧
        interp r0.1 ms = some (pick z) := by
    intro pick c z hz
    have hm : ∀ l : MtTable K, (∀ r ∈ l, r.2 = row) →
        l.mapM (fun r => (r.2[c]?).map (fun q => (r.1, pick q))) = some (l.map (fun r => (r.1, pick z))) := by
      intro l
      induction l with
      | nil => intro _; rfl
      | cons a l ih =>
        intro hl
        rw [List.mapM_cons, ih (fun r hr => hl r (by simp [hr])), hl a (by simp), hz]
        rfl
    refine ⟨_, hm _ hrow, ?_⟩
    obtain ⟨v, hv⟩ := interp_some r0.1 ((r0 :: rows').map (fun r => (r.1, pick z))) (by simp)
    have hb := interp_bounds r0.1 v (pick z) (pick z) _ hv (fun q hq => by
      obtain ⟨r, -, rfl⟩ := List.mem_map.1 hq
      simp)
    rw [hv, le_antisymm hb.2 hb.1]
  have htail : (List.range (ncol - 1)).mapM (fun c => do
      let ms ← (r0 :: rows').mapM (fun r => (r.2[c + 1]?).map (fun q => (r.1, q.2)))
      let ts ← (r0 :: rows').mapM (fun r => (r.2[c + 1]?).map (fun q => (r.1, q.1)))
      let m ← interp r0.1 ms
      let t ← interp r0.1 ts
      return (t, m)) = some row.tail := by
    have : ∀ (k : ℕ) (l : List (K × K)), k + l.length = ncol → (∀ i : ℕ, row[k + i]? = l[i]?) →
        (List.range' (k - 1) l.length).mapM (fun c => do
          let ms ← (r0 :: rows').mapM (fun r => (r.2[c + 1]?).map (fun q => (r.1, q.2)))
          let ts ← (r0 :: rows').mapM (fun r => (r.2[c + 1]?).map (fun q => (r.1, q.1)))
          let m ← interp r0.1 ms
          let t ← interp r0.1 ts
          return (t, m)) = some l ∨ k = 0 := by
      intro k l
      induction l generalizing k with
      | nil => intro _ _; exact .inl rfl
      | cons z l ih =>
        intro hk hi
        rcases Nat.eq_zero_or_pos k with hk0 | hk0
        · exact .inr hk0
        left
        have hz : row[k - 1 + 1]? = some z := by
          have := hi 0
          rw [show k - 1 + 1 = k by omega]
          simpa using this
        obtain ⟨ms, e1, e2⟩ := hcol (·.2) _ z hz
        obtain ⟨ts, e3, e4⟩ := hcol (·.1) _ z hz
        have := ih (k + 1) (by simp at hk ⊢; omega) (fun i => by
          have := hi (i + 1)
          rw [show k + 1 + i = k + (i + 1) by omega]
          simpa using this)
        have := this.resolve_right (by omega)
        rw [show k + 1 - 1 = k - 1 + 1 by omega] at this
        rw [List.length_cons, List.range'_succ, List.mapM_cons, this]
        simp only [e1, e2, e3, e4, Option.bind_eq_bind, Option.bind_some, Option.pure_def]
    have h := (this 1 row.tail (by simp; omega) (fun i => by
      rw [List.getElem?_tail, Nat.add_comm])).resolve_right (by omega)
    rw [List.range_eq_range', show ncol - 1 = row.tail.length by simp; omega]
    exact h
  unfold mtCurve
  rw [htail]
  rcases row with _ | ⟨a, row⟩
  · simp at h0
  · simp only [List.getElem?_cons_zero, Option.some.injEq] at h0
    rw [h0]
    rfl

/-- In the first branch all three stiffnesses are its slope, whatever the lateral spring mobilises. -/
theorem mt_first (rows : MtTable K) (ncol : ℕ) (t : K)
    (h : (∃ r, rows.head? = some r ∧ (r.2.map (·.1)).sum = 0) ∨ FirstBranchMt rows ncol t) (kind : Kind) (p p' : K) :
    mtStiffness rows ncol p kind t = mtStiffness rows ncol p' .initial 0 := by
  rcases h with ⟨r, hr, h0⟩ | ⟨t1, m1, rest, hne, hrow, hn, hs, ht⟩
  · unfold mtStiffness
    simp [hr, h0]
  · have hcur : ∀ q, mtCurve rows ncol q = some ((0, 0) :: (t1, m1) :: rest) := fun q =>
      mtCurve_rows rows _ ncol hne hrow (by simp [hn]) (by omega) rfl q
    have hx : 0 < t1 := (List.pairwise_cons.1 hs).1 (t1, m1) (by simp)
    obtain ⟨r0, rows', rfl⟩ := List.exists_cons_of_ne_nil hne
    have hr0 := hrow r0 (by simp)
    have hsum : (r0.2.map (·.1)).sum ≠ 0 := by
      rw [hr0]
      exact sum_fst_pos 0 0 _ (by simp) hs le_rfl
    obtain ⟨⟨tl, ml⟩, hlast⟩ : ∃ q, ((0, 0) :: (t1, m1) :: rest).getLast? = some q := by
      rcases h : ((0, 0) :: (t1, m1) :: rest).getLast? with _ | q
      · simp at h
      · exact ⟨q, rfl⟩
    have hval : ∀ d, 0 ≤ d → d ≤ t1 →
        (if d > tl then some ml else interp d ((0, 0) :: (t1, m1) :: rest)) = some (m1 / t1 * d) := by
      intro d h0 h1
      have hi : interp d ((0, 0) :: (t1, m1) :: rest) = some (m1 / t1 * d) := by
        rw [← List.nil_append ((0, 0) :: (t1, m1) :: rest), interp_seg d [] rest 0 0 t1 m1 hs h0 h1]
        simp
      have hle : t1 ≤ tl := by
        have hm : (tl, ml) ∈ (t1, m1) :: rest := by
          rw [List.getLast?_cons_cons] at hlast
          exact List.mem_of_getLast? hlast
        rcases List.mem_cons.1 hm with e | e
        · rw [Prod.mk.injEq] at e
          exact e.1.ge
        · exact ((List.pairwise_cons.1 (List.pairwise_cons.1 hs).2).1 _ e).le
      rw [if_neg (by linarith), hi]
    have hI : ∀ k q v, (k = Kind.initial ∨ |v| = 0) → mtStiffness (r0 :: rows') ncol q k v = some (|m1| / t1) := by
      intro k q v hk
      unfold mtStiffness
      simp only [List.head?_cons, hsum, hcur, hlast, Option.bind_eq_bind, Option.bind_some, if_false,
        List.getElem?_cons_zero, List.getElem?_cons_succ, if_pos hk]
      simp [quot, hx.ne']
    rw [hI .initial p' 0 (.inl rfl)]
    by_cases h0 : |t| = 0
    · exact hI kind p t (.inr h0)
    · have htp : 0 < |t| := lt_of_le_of_ne (abs_nonneg t) (Ne.symm h0)
      cases kind with
      | initial => exact hI _ _ _ (.inl rfl)
      | secant =>
        unfold mtStiffness
        simp only [List.head?_cons, hsum, hcur, hlast, Option.bind_eq_bind, Option.bind_some, if_false,
          List.getElem?_cons_zero, List.getElem?_cons_succ, reduceCtorEq, h0, or_self, hval |t| htp.le ht, quot]
        congr 1
        rw [sub_zero, abs_mul, abs_div, abs_abs, abs_of_pos hx]
        field_simp
      | tangent =>
        have hmin : 0 < min (1 / 100 * t1) |t| := lt_min (by positivity) htp
        have hle : min (1 / 100 * t1) |t| ≤ |t| := min_le_right _ _
        unfold mtStiffness
        simp only [List.head?_cons, hsum, hcur, hlast, Option.bind_eq_bind, Option.bind_some, if_false,
          List.getElem?_cons_zero, List.getElem?_cons_succ, reduceCtorEq, h0, or_self, hval |t| htp.le ht,
          hval (|t| - min (1 / 100 * t1) |t|) (by linarith) (by linarith), quot, hmin.ne']
        congr 1
        rw [← mul_sub, sub_sub_cancel, abs_mul, abs_div, abs_of_pos hx, abs_of_pos hmin]
        field_simp

/-- All springs stay in their first branch at the displacements `u`, the rotational springs along the shaft
included; these do not depend on the mobilised lateral resistance. -/
structure SmallMotions {n : ℕ} (sp : Springs K n) (u : Fin (3 * n + 3) → K) : Prop where
  others : SmallDisplacements { sp with distributedMoment := false } u
  moment : sp.distributedMoment = true → ∀ e b,
    (∃ r, (sp.mt e b).head? = some r ∧ (r.2.map (·.1)).sum = 0) ∨
    FirstBranchMt (sp.mt e b) sp.ncol (u (dof (seenNode e b) 2))

/-- At such displacements the stiffness is the initial one. -/
theorem build_first_mt (ty : ElementType) {n : ℕ} (el : Fin n → Elem K) (sp : Springs K n) (u : Fin (3 * n + 3) → K)
    (h : SmallMotions sp u) (kind : Kind) :
    buildStiffness ty el sp kind u = buildStiffness ty el sp .initial 0 := by
  obtain ⟨⟨hl, ha, -, hh, hb, hq⟩, hm⟩ := h
  have h1 : ∀ e b, pyAt sp kind u e b = pyAt sp .initial 0 e b := by
    intro e b
    unfold pyAt
    simp only [springDisp_seen, Option.bind_eq_bind, Option.bind_some, Pi.zero_apply]
    split
    · next g => exact py_first _ _ (hl g e b) kind
    · rfl
  have h2 : ∀ e b, tzAt sp kind u e b = tzAt sp .initial 0 e b := by
    intro e b
    unfold tzAt
    simp only [springDisp_seen, Option.bind_eq_bind, Option.bind_some, Pi.zero_apply]
    split
    · next g => exact tz_middle _ _ (ha g e b) kind
    · rfl
  have h3 : ∀ e b, mtAt sp kind u e b = mtAt sp .initial 0 e b := by
    intro e b
    unfold mtAt
    simp only [springDisp_seen, Option.bind_eq_bind, Option.bind_some, Pi.zero_apply]
    split
    · next g =>
      split
      · next g' =>
        have e1 := py_first _ _ (hl g' e b) .secant
        have e2 : pyStiffness (sp.py e b) .secant 0 = pyStiffness (sp.py e b) .initial 0 := by
          unfold pyStiffness curveStiffness
          simp
        dsimp only at e1
        rw [e1, e2]
        rcases pyStiffness (sp.py e b) .initial 0 with _ | ks
        · rfl
        · exact mt_first _ _ _ (hm g e b) kind _ _
      · rfl
    · rfl
  have h4 : soilAt sp kind u = soilAt sp .initial 0 := by
    funext e
    unfold soilAt
    simp only [h1, h2, h3]
  have h5 : sp.baseShear = true → baseStiffness sp.hb kind (u ⟨3 * n + 1, by omega⟩) = baseStiffness sp.hb .initial 0 :=
    fun g => base_first _ _ (hh g) kind
  have h6 : sp.baseMoment = true → baseStiffness sp.mb kind (u ⟨3 * n + 2, by omega⟩) = baseStiffness sp.mb .initial 0 :=
    fun g => base_first _ _ (hb g) kind
  have h7 : sp.baseAxial = true → baseAxialStiffness sp.qz kind (u ⟨3 * n, by omega⟩)
      = baseAxialStiffness sp.qz .initial 0 :=
    fun g => qz_middle _ _ (hq g) kind
  unfold buildStiffness
  rw [h4]
  cases g1 : sp.baseShear <;> cases g2 : sp.baseMoment <;> cases g3 : sp.baseAxial <;>
    simp only [g1, g2, g3, true_implies] at h5 h6 h7 <;> simp [h5, h6, h7]

/-- **C60, small loads, rotational springs.** As `C60_linear_partial`, with rotational springs along the shaft that
do not depend on the mobilised lateral resistance (as those of the PISA clay model). Missing: rotational springs that
do, for which the statement is false, see `C60_violated_moment`. -/
theorem C60_linear_moment_partial (ty : ElementType) {n : ℕ} (el : Fin n → Elem K) (sp : Springs K n)
    (F U : Fin (3 * n + 3) → K) (fix : Fin (3 * n + 3) → Bool) (A : Matrix (Fin (3 * n + 3)) (Fin (3 * n + 3)) K)
    (u Q : Fin (3 * n + 3) → K) (hA : buildStiffness ty el sp .initial 0 = some A)
    (hs : solveEquations A F U (fun i => fix i || decide (U i ≠ 0)) = some (u, Q)) (h : SmallMotions sp u)
    (hpos : ∃ i, F i ≠ 2 * Q i) (maxIter : ℕ) (hm : 1 ≤ maxIter) :
    ∃ t, winkler (buildStiffness ty el sp) F U fix maxIter = .converged u Q 2 t 0 := by
  refine ⟨_, linear_range _ A F U fix u Q hs hA ?_ ?_ ?_ maxIter hm⟩
  · rw [build_first_mt ty el sp u h, hA]
  · rw [build_first_mt ty el sp u h, hA]
  · obtain ⟨i, hi⟩ := hpos
    exact Finset.sum_pos' (fun i _ => sq_nonneg _)
      ⟨i, Finset.mem_univ _, sq_pos_of_ne_zero (sub_ne_zero.2 hi)⟩

/-- **C60, proportionality, rotational springs.** As `C60_proportional_partial`. -/
theorem C60_proportional_moment_partial (ty : ElementType) {n : ℕ} (el : Fin n → Elem K) (sp : Springs K n)
    (F U : Fin (3 * n + 3) → K) (fix : Fin (3 * n + 3) → Bool) (A : Matrix (Fin (3 * n + 3)) (Fin (3 * n + 3)) K)
    (u Q : Fin (3 * n + 3) → K) (hA : buildStiffness ty el sp .initial 0 = some A)
    (hs : solveEquations A F U (fun i => fix i || decide (U i ≠ 0)) = some (u, Q)) (h : SmallMotions sp u)
    (hpos : ∃ i, F i ≠ 2 * Q i) (maxIter : ℕ) (hm : 1 ≤ maxIter) (c : K) (h0 : 0 < c) (h1 : c ≤ 1) :
    ∃ t, winkler (buildStiffness ty el sp) (c • F) (c • U) fix maxIter = .converged (c • u) (c • Q) 2 t 0 := by
  have hsup : (fun i => fix i || decide ((c • U) i ≠ 0)) = fun i => fix i || decide (U i ≠ 0) := by
    funext i
    simp [h0.ne']
  have hs' : solveEquations A (c • F) (c • U) (fun i => fix i || decide ((c • U) i ≠ 0)) = some (c • u, c • Q) := by
    rw [hsup]
    have := C23_superposition A F F U U _ u u Q Q c 0 hs hs
    simpa using this
  refine C60_linear_moment_partial ty el sp (c • F) (c • U) fix A (c • u) (c • Q) hA hs' ?_ ?_ maxIter hm
  · obtain ⟨h, hmt⟩ := h
    refine ⟨⟨fun hl e b => (h.lateral hl e b).imp_right (fun g => g.scale h0.le h1),
      fun hl e b => (h.axial hl e b).imp_right (fun g => g.scale h0.le h1), rfl,
      fun hl => (h.baseShear hl).imp_right (fun g => g.scale h0.le h1),
      fun hl => (h.baseMoment hl).imp_right (fun g => g.scale h0.le h1),
      fun hl => (h.baseAxial hl).imp_right (fun g => g.scale h0.le h1)⟩, fun hd e b => (hmt hd e b).imp_right ?_⟩
    rintro ⟨t1, m1, rest, g1, g2, g3, g4, g5⟩
    refine ⟨t1, m1, rest, g1, g2, g3, g4, ?_⟩
    rw [Pi.smul_apply, smul_eq_mul, abs_mul, abs_of_nonneg h0.le]
    exact (mul_le_of_le_one_left (abs_nonneg _) h1).trans g5
  · obtain ⟨i, hi⟩ := hpos
    refine ⟨i, fun e => hi ?_⟩
    simp only [Pi.smul_apply, smul_eq_mul] at e
    have : c * F i = c * (2 * Q i) := by rw [e]; ring
    exact mul_left_cancel₀ h0.ne' this

/-! ### a pile that meets the hypotheses, and one that does not -/

/-- The element of `C58_violated_moment` with rotational springs of constant strength. -/
def spE : Springs ℚ 1 := { spW with mt := fun _ _ => [(0, [(0, 0), (100, 3000)]), (210, [(0, 0), (100, 3000)])] }

/-- Head displaced by 1 m: it rotates by -2 with springs of constant strength, and half of it by half of that. -/
example (maxIter : ℕ) (hm : 1 ≤ maxIter) :
    (∃ Q t, winkler (buildStiffness .eulerBernoulli elW spE) 0 (dW 1 0) fixW maxIter = .converged (dW 1 (-2)) Q 2 t 0) ∧
    ∃ Q t, winkler (buildStiffness .eulerBernoulli elW spE) ((1 / 2 : ℚ) • 0) ((1 / 2 : ℚ) • dW 1 0) fixW maxIter
      = .converged ((1 / 2 : ℚ) • dW 1 (-2)) Q 2 t 0 := by
  have hA : buildStiffness .eulerBernoulli elW spE .initial 0 = some (kW 30) := by
    have h : soilAt spE .initial 0 0 = some ⟨(210, 210), (0, 0), (30, 30)⟩ := by decide +kernel
    have h1 : soilAt spE .initial 0 = fun _ => some ⟨(210, 210), (0, 0), (30, 30)⟩ := by
      funext e
      rw [Subsingleton.elim e 0, h]
    have h2 : allSome (soilAt spE .initial 0) = some (fun _ => ⟨(210, 210), (0, 0), (30, 30)⟩) := by
      rw [h1]
      simp [allSome]
    unfold buildStiffness
    rw [h2]
    simp [spE, spW, kW]
  have hsup : (fun i => fixW i || decide (dW 1 0 i ≠ 0)) = fixW := by decide +kernel
  have hs : solveEquations (kW 30) 0 (dW 1 0) (fun i => fixW i || decide (dW 1 0 i ≠ 0))
      = some (dW 1 (-2), fun i => (kW 30 *ᵥ dW 1 (-2)) i - (0 : Fin (3 * 1 + 3) → ℚ) i) := by
    rw [hsup]
    exact solveW 30 (by norm_num) 0 1 (-2) (by simp; norm_num)
  have hsmall : SmallMotions spE (dW 1 (-2)) := by
    refine ⟨⟨fun _ e b => .inr ⟨1, 210, [], rfl, ?_, ?_⟩, ?_, rfl, ?_, ?_, ?_⟩, fun _ e b => .inr
      ⟨100, 3000, [], by simp [spE], by simp [spE], rfl, ?_, ?_⟩⟩
    · simp [spE, spW, Asc]
    · have hd : dof (seenNode e b) 1 = ⟨3 * (seenNode e b).1 + 1, by omega⟩ := rfl
      rw [hd]
      unfold dW
      split_ifs
      · norm_num
      · next g => dsimp only at g; omega
      · norm_num
    · intro h; cases h
    · intro h; cases h
    · intro h; cases h
    · intro h; cases h
    · simp [Asc]
    · unfold dW; split_ifs <;> norm_num
  have hpos : ∃ i, (0 : Fin (3 * 1 + 3) → ℚ) i ≠ 2 * ((kW 30 *ᵥ dW 1 (-2)) i - (0 : Fin (3 * 1 + 3) → ℚ) i) := by
    refine ⟨⟨1, by norm_num⟩, ?_⟩
    rw [kW_row1]
    simp
    norm_num
  obtain ⟨t, ht⟩ := C60_linear_moment_partial .eulerBernoulli elW spE 0 (dW 1 0) fixW _ _ _ hA hs hsmall hpos maxIter hm
  obtain ⟨t', ht'⟩ := C60_proportional_moment_partial .eulerBernoulli elW spE 0 (dW 1 0) fixW _ _ _ hA hs hsmall hpos
    maxIter hm (1 / 2) (by norm_num) (by norm_num)
  exact ⟨⟨_, t, ht⟩, ⟨_, t', ht'⟩⟩

/-- **C60 violated by rotational springs that depend on the mobilised lateral resistance.** The head of an element
is displaced by 1 m, then by half of it. All springs stay on their first branch, also at the displacements of the
initial stiffness. The rotation is -2 in the first and -37/32 in the second case, not half of it, and neither is the
rotation on the initial stiffnesses, -17/6 and -17/12. -/
theorem C60_violated_moment (maxIter : ℕ) (hm : 1 ≤ maxIter) :
    (∃ Q t r, winkler (buildStiffness .eulerBernoulli elW spW) 0 (dW 1 0) fixW maxIter
      = .converged (dW 1 (-2)) Q 2 t r) ∧
    (∃ Q t r, winkler (buildStiffness .eulerBernoulli elW spW) 0 (dW (1 / 2) 0) fixW maxIter
      = .converged (dW (1 / 2) (-37 / 32)) Q 2 t r) ∧
    dW (1 / 2) (-37 / 32) ≠ (1 / 2 : ℚ) • dW 1 (-2) ∧
    (∃ A Q, buildStiffness .eulerBernoulli elW spW .initial 0 = some A ∧
      solveEquations A 0 (dW 1 0) fixW = some (dW 1 (-17 / 6), Q)) ∧
    (∀ t : ℚ, |t| ≤ 17 / 6 → SmallDisplacements { spW with distributedMoment := false } (dW 1 t) ∧
      ∀ r ∈ spW.mt 0 false, FirstBranchMt [r] spW.ncol t) := by
  have h0 : soilAt spW .initial 0 0 = some ⟨(210, 210), (0, 0), (0, 0)⟩ := by decide +kernel
  refine ⟨runW 1 30 (-17 / 6) (-2) (by norm_num) maxIter hm h0 (by decide +kernel) (by decide +kernel)
    (by decide +kernel) (by norm_num) (by norm_num) (by norm_num),
    runW (1 / 2) 15 (-17 / 12) (-37 / 32) (by norm_num) maxIter hm h0 (by decide +kernel) (by decide +kernel)
    (by decide +kernel) (by norm_num) (by norm_num) (by norm_num), by decide +kernel,
    ⟨kW 0, _, soil_of _ _ _ h0, solveW 0 le_rfl 0 1 (-17 / 6) (by simp; norm_num)⟩, ?_⟩
  intro t ht
  refine ⟨⟨fun _ e b => .inr ⟨1, 210, [], rfl, ?_, ?_⟩, ?_, rfl, ?_, ?_, ?_⟩, ?_⟩
  · simp [spW, Asc]
  · have hd : dof (seenNode e b) 1 = ⟨3 * (seenNode e b).1 + 1, by omega⟩ := rfl
    rw [hd]
    unfold dW
    split_ifs
    · norm_num
    · next g => dsimp only at g; omega
    · norm_num
  · intro h; cases h
  · intro h; cases h
  · intro h; cases h
  · intro h; cases h
  · intro r hr
    simp only [spW, List.mem_cons, List.not_mem_nil, or_false] at hr
    rcases hr with rfl | rfl
    · exact ⟨100, 0, [], by simp, by simp, rfl, by simp [Asc], by linarith⟩
    · exact ⟨100, 3000, [], by simp, by simp, rfl, by simp [Asc], by linarith⟩

end OpenPile.Props.LinearRange

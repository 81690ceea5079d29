/-
Property C120: where no layer has rotational springs, their switch does not matter, and the comparisons of C84, C116 and C119 hold
with it turned on.

`kernel.py` 457-477 (`elem_mt_stiffness_matrix`), 717-787 (stiffness), `winkler.py` 502-637 (`winkler`), `construct.py` 1146-1356
(creation of the springs).  `distributed_moment` is on unless a Model is created without it, so that this is the usual case for
piles in API soils.
-/
import Verif.Props.Multiplied
import Verif.Props.Towards
import Verif.Props.ControlSoil

namespace OpenPile.Props.NoRotation
open OpenPile.Kernel OpenPile.Winkler OpenPile.Spring OpenPile.Result OpenPile.BC OpenPile.Mesh OpenPile.Analysis
open OpenPile.Assemble OpenPile.SoilAnalysis OpenPile.SoilModel OpenPile.Props.SoilTables
open OpenPile.Props.Assemble (C54_mt C54_outside C54_mesh owners)
open OpenPile.Props.Analysis OpenPile.Props.Reported
open OpenPile.Props.Compliance (Accepted OneLoad)
open OpenPile.Props.SoilSupport (extent)
open OpenPile.Props.Superpose (OnFirstBranch)
open OpenPile.Props.StifferSoil OpenPile.Props.Multiplied
open Matrix

/-- The switches with the rotational springs along the shaft turned off. -/
def noRot (w : Switches) : Switches := { w with distributedMoment := false }

/-- Rotational springs whose tables have no rotations. -/
def NoTurn (A : Arrays) (n : ℕ) : Prop := ∀ e < n, ∀ b, ∀ row, (A.mt e b).head? = some row → (row.map (·.1)).sum = 0

/-! ### the analysis -/

section loop
variable {ι : Type} [Fintype ι] [DecidableEq ι] {K : Type} [Field K] [LinearOrder K]

theorem loop_upto {b b' : Kind → (ι → K) → Option (Matrix ι ι K)} (h : ∀ kind d M, (kind = .initial → d = 0) → b kind d = some M → b' kind d = some M)
    (F U0 : ι → K) (sup : ι → Bool) (fuel : ℕ) : ∀ (it : ℕ) (d : ι → K) (A : Matrix ι ι K) (U Rg Q : ι → K) (t r : K),
    loop b F U0 sup fuel it d A U Rg Q t r ≠ .raised →
      loop b' F U0 sup fuel it d A U Rg Q t r = loop b F U0 sup fuel it d A U Rg Q t r := by
  induction fuel with
  | zero => intros; rfl
  | succ fuel ih =>
    intro it d A U Rg Q t r hne
    unfold loop at hne ⊢
    rcases hs : solveEquations A Rg U sup with _ | ⟨uInc, Q'⟩
    · rfl
    simp only [hs] at hne ⊢
    rcases hb : b .secant (fun i => d i + uInc i) with _ | Ks
    · simp [hb] at hne
    rw [h _ _ _ (fun g => by cases g) hb]
    simp only [hb] at hne ⊢
    split_ifs with h1 h2
    · rfl
    · rfl
    rw [if_neg h1, if_neg h2] at hne
    rcases ht : b .tangent (fun i => d i + uInc i) with _ | Kt
    · simp [ht] at hne
    rw [h _ _ _ (fun g => by cases g) ht]
    simp only [ht] at hne ⊢
    exact ih _ _ _ _ _ _ _ _ hne

theorem winkler_upto {b b' : Kind → (ι → K) → Option (Matrix ι ι K)} (h : ∀ kind d M, (kind = .initial → d = 0) → b kind d = some M → b' kind d = some M)
    (F U0 : ι → K) (fix : ι → Bool) (m : ℕ) (hne : winkler b F U0 fix m ≠ .raised) :
    winkler b' F U0 fix m = winkler b F U0 fix m := by
  unfold winkler at hne ⊢
  rcases hb : b .initial 0 with _ | A
  · simp [hb] at hne
  rw [h _ _ _ (fun _ => rfl) hb]
  simp only [hb] at hne ⊢
  exact loop_upto h _ _ _ _ _ _ _ _ _ _ _ _ hne

end loop

theorem mt_zero {rows : List (List (ℝ × ℝ))} (h : ∀ row, rows.head? = some row → (row.map (·.1)).sum = 0) (c : List ℝ)
    {q u k : ℝ} {kind : Kind} (hk : mtStiffness (c.zip rows) 15 q kind u = some k) : k = 0 := by
  unfold mtStiffness at hk
  rcases c with _ | ⟨a, c⟩
  · simp at hk
  rcases rows with _ | ⟨row, rows⟩
  · simp at hk
  simp only [List.zip_cons_cons, List.head?_cons, Option.bind_eq_bind, Option.bind_some, h row rfl, if_true, Option.pure_def,
    Option.some.injEq] at hk
  exact hk.symm

/-- A matrix of the pile with the switch on is the matrix with the switch off. -/
theorem build_noRot {ty : ElementType} {n : ℕ} {el : Fin n → Elem ℝ} {w : Switches} {A : Arrays} (hA : NoTurn A n) {kind : Kind}
    {u : Fin (3 * n + 3) → ℝ} {M : Matrix (Fin (3 * n + 3)) (Fin (3 * n + 3)) ℝ}
    (h : buildStiffness ty el (springsOf w A n) kind u = some M) :
    buildStiffness ty el (springsOf (noRot w) A n) kind u = some M := by
  have one : ∀ e b k, mtAt (springsOf w A n) kind u e b = some k → mtAt (springsOf (noRot w) A n) kind u e b = some k := by
    intro e b k hk
    have h0 : mtAt (springsOf (noRot w) A n) kind u e b = some 0 := rfl
    rw [h0]
    unfold mtAt at hk
    split_ifs at hk with h1 h2
    · simp only [Option.bind_eq_bind, Option.bind_eq_some_iff] at hk
      obtain ⟨uy, -, ks, -, v, -, hk⟩ := hk
      rw [mt_zero (hA e.1 e.2 b) _ hk]
    · exact hk
  have soil : ∀ e s, soilAt (springsOf w A n) kind u e = some s → soilAt (springsOf (noRot w) A n) kind u e = some s := by
    intro e s hs
    unfold soilAt at hs ⊢
    simp only [Option.bind_eq_bind, Option.bind_eq_some_iff, Option.pure_def, Option.some.injEq] at hs ⊢
    obtain ⟨a1, e1, a2, e2, a3, e3, a4, e4, a5, e5, a6, e6, rfl⟩ := hs
    exact ⟨a1, e1, a2, e2, a3, e3, a4, e4, a5, one _ _ _ e5, a6, one _ _ _ e6, rfl⟩
  have all : ∀ s, allSome (soilAt (springsOf w A n) kind u) = some s → allSome (soilAt (springsOf (noRot w) A n) kind u) = some s := by
    intro s hs
    unfold allSome at hs ⊢
    split_ifs at hs with h1
    rw [Option.some.injEq] at hs
    have key : ∀ i, soilAt (springsOf (noRot w) A n) kind u i = some (s i) := by
      intro i
      apply soil
      rw [← hs, Option.some_get]
    rw [dif_pos (fun i => by rw [key]; rfl), Option.some.injEq]
    funext i
    simp only [key, Option.get_some]
  unfold buildStiffness at h ⊢
  simp only [Option.bind_eq_bind, Option.bind_eq_some_iff] at h ⊢
  obtain ⟨s, hs, h⟩ := h
  exact ⟨s, all s hs, h⟩

/-- **C120, the analysis.** With tables without rotations, an analysis that returns with the rotational springs turned on
returns the same with them turned off: tables, mobilisation and details. -/
theorem C120_analysis {ty : ElementType} {p : Pile.Pile ℝ} {C : Coordinates ℝ} {w : Switches} {A : Arrays}
    (hA : NoTurn A C.elements.length) {bcs : List (Cond ℝ)} {m : ℕ} {r : SoilResult}
    (h : solveSoilOn ty p C w A bcs m = some r) : solveSoilOn ty p C (noRot w) A bcs m = some r := by
  unfold solveSoilOn at h ⊢
  simp only [Option.bind_eq_bind, Option.bind_eq_some_iff] at h ⊢
  obtain ⟨F, h1, U, h2, R, h3, F', h4, U', h5, R', h6, el, h7, h⟩ := h
  refine ⟨F, h1, U, h2, R, h3, F', h4, U', h5, R', h6, el, h7, ?_⟩
  have hne : winkler (buildStiffness ty el (springsOf w A C.elements.length)) F' U' R' m ≠ .raised := by
    intro hr
    rw [hr] at h
    simp at h
  rw [winkler_upto (fun kind d M _ hM => build_noRot hA hM) F' U' R' m hne]
  exact h

/-! ### the other direction -/

/-- Where the tangent stiffness exists, or the first stiffness at rest, the secant stiffness exists. -/
theorem secant_exists {tab : List (ℝ × ℝ)} {kind : Kind} {u : ℝ} (hk : kind = .initial → u = 0)
    (h : (pyStiffness tab kind u).isSome) : (pyStiffness tab .secant u).isSome := by
  unfold pyStiffness at h ⊢
  split_ifs at h ⊢ with h0
  · rfl
  rcases tab with _ | ⟨⟨x0, p0⟩, _ | ⟨⟨x1, p1⟩, rest⟩⟩
  · simp [curveStiffness] at h
  · simp [curveStiffness] at h
  unfold curveStiffness at h ⊢
  dsimp only at h ⊢
  by_cases hu : |u| = 0
  · rw [if_pos (.inr hu)] at h ⊢
    exact h
  have hki : kind ≠ .initial := fun e => hu (by rw [hk e, abs_zero])
  rw [if_neg (by rintro (e | e); exacts [hki e, hu e])] at h
  rw [if_neg (by rintro (e | e); exacts [(by cases e), hu e])]
  cases kind with
  | initial => exact absurd rfl hki
  | secant => exact h
  | tangent =>
    simp only [Option.bind_eq_bind] at h ⊢
    rcases hr : resistance ((x0, p0) :: (x1, p1) :: rest) |u| with _ | r
    · rw [hr] at h
      rcases resistance ((x0, p0) :: (x1, p1) :: rest) (|u| - min (5 / 10000) |u|) with _ | r0 <;> simp at h
    · simp [absQuot, hu]

theorem mt_exists {rows : List (List (ℝ × ℝ))} (h : ∀ row, rows.head? = some row → (row.map (·.1)).sum = 0) (h1 : rows ≠ [])
    {c : List ℝ} (h2 : c ≠ []) (q u : ℝ) (kind : Kind) : mtStiffness (c.zip rows) 15 q kind u = some 0 := by
  unfold mtStiffness
  rcases c with _ | ⟨a, c⟩
  · exact absurd rfl h2
  rcases rows with _ | ⟨row, rows⟩
  · exact absurd rfl h1
  simp only [List.zip_cons_cons, List.head?_cons, Option.bind_eq_bind, Option.bind_some, h row rfl, if_true, Option.pure_def]

theorem disp_exists {n : ℕ} (u : Fin (3 * n + 3) → ℝ) (s : Fin 3) (e : Fin n) (b : Bool) : ∃ v, springDisp u s e b = some v :=
  ⟨_, SoilStiffness.springDisp_seen u s e b⟩

/-- No table is empty; those of a Model never are. -/
def Filled (A : Arrays) (n : ℕ) : Prop := ∀ e < n, ∀ b, A.py e b ≠ [] ∧ A.mt e b ≠ []

/-- A matrix of the pile with the switch off is the matrix with the switch on, if the lateral springs are on. -/
theorem build_rot {ty : ElementType} {n : ℕ} {el : Fin n → Elem ℝ} {w : Switches} (hw : w.distributedLateral = true) {A : Arrays}
    (hA : NoTurn A n) (hF : Filled A n) {kind : Kind} {u : Fin (3 * n + 3) → ℝ} (hk : kind = .initial → u = 0)
    {M : Matrix (Fin (3 * n + 3)) (Fin (3 * n + 3)) ℝ}
    (h : buildStiffness ty el (springsOf (noRot w) A n) kind u = some M) :
    buildStiffness ty el (springsOf w A n) kind u = some M := by
  rcases hm : w.distributedMoment with _ | _
  · have : noRot w = w := by
      obtain ⟨a, b, c, d, e, f⟩ := w
      cases hm
      rfl
    rwa [this] at h
  have one : ∀ e b p k, pyAt (springsOf (noRot w) A n) kind u e b = some p → mtAt (springsOf (noRot w) A n) kind u e b = some k →
      mtAt (springsOf w A n) kind u e b = some k := by
    intro e b p k hp hk'
    have h0 : mtAt (springsOf (noRot w) A n) kind u e b = some 0 := rfl
    rw [h0] at hk'
    obtain ⟨uy, e1⟩ := disp_exists u 1 e b
    obtain ⟨ur, e2⟩ := disp_exists u 2 e b
    have hp' : pyStiffness (A.py e.1 b) kind uy = some p := by
      unfold pyAt at hp
      rw [if_pos (show (springsOf (noRot w) A n).distributedLateral = true from hw), e1] at hp
      exact hp
    have hz : kind = .initial → uy = 0 := by
      intro g
      rw [SoilStiffness.springDisp_seen, hk g, Option.some.injEq] at e1
      exact e1.symm
    obtain ⟨ks, hks⟩ := Option.isSome_iff_exists.1 (secant_exists hz (by rw [hp']; rfl))
    unfold mtAt
    rw [if_pos (show (springsOf w A n).distributedMoment = true from hm),
      if_pos (show (springsOf w A n).distributedLateral = true from hw), e1, e2]
    simp only [Option.bind_eq_bind, Option.bind_some]
    rw [show (springsOf w A n).py e b = A.py e.1 b from rfl, hks, Option.bind_some,
      show (springsOf w A n).mt e b = ((A.py e.1 b).map (·.2)).zip (A.mt e.1 b) from rfl,
      show (springsOf w A n).ncol = 15 from rfl,
      mt_exists (hA e.1 e.2 b) (hF e.1 e.2 b).2 (by simpa using (hF e.1 e.2 b).1), hk']
  have soil : ∀ e s, soilAt (springsOf (noRot w) A n) kind u e = some s → soilAt (springsOf w A n) kind u e = some s := by
    intro e s hs
    unfold soilAt at hs ⊢
    simp only [Option.bind_eq_bind, Option.bind_eq_some_iff, Option.pure_def, Option.some.injEq] at hs ⊢
    obtain ⟨a1, e1, a2, e2, a3, e3, a4, e4, a5, e5, a6, e6, rfl⟩ := hs
    exact ⟨a1, e1, a2, e2, a3, e3, a4, e4, a5, one _ _ _ _ e1 e5, a6, one _ _ _ _ e2 e6, rfl⟩
  have all : ∀ s, allSome (soilAt (springsOf (noRot w) A n) kind u) = some s → allSome (soilAt (springsOf w A n) kind u) = some s := by
    intro s hs
    unfold allSome at hs ⊢
    split_ifs at hs with h1
    rw [Option.some.injEq] at hs
    have key : ∀ i, soilAt (springsOf w A n) kind u i = some (s i) := by
      intro i
      apply soil
      rw [← hs, Option.some_get]
    rw [dif_pos (fun i => by rw [key]; rfl), Option.some.injEq]
    funext i
    simp only [key, Option.get_some]
  unfold buildStiffness at h ⊢
  simp only [Option.bind_eq_bind, Option.bind_eq_some_iff] at h ⊢
  obtain ⟨s, hs, h⟩ := h
  exact ⟨s, all s hs, h⟩

/-- **C120, the analysis, both directions.** With the lateral springs on and tables without rotations, an analysis returns
with the rotational springs turned on exactly when it returns with them turned off, and the same. -/
theorem C120_analysis_iff {ty : ElementType} {p : Pile.Pile ℝ} {C : Coordinates ℝ} {w : Switches} (hw : w.distributedLateral = true)
    {A : Arrays} (hA : NoTurn A C.elements.length) (hF : Filled A C.elements.length) {bcs : List (Cond ℝ)} {m : ℕ} {r : SoilResult} :
    solveSoilOn ty p C w A bcs m = some r ↔ solveSoilOn ty p C (noRot w) A bcs m = some r := by
  refine ⟨C120_analysis hA, fun h => ?_⟩
  unfold solveSoilOn at h ⊢
  simp only [Option.bind_eq_bind, Option.bind_eq_some_iff] at h ⊢
  obtain ⟨F, h1, U, h2, R, h3, F', h4, U', h5, R', h6, el, h7, h⟩ := h
  refine ⟨F, h1, U, h2, R, h3, F', h4, U', h5, R', h6, el, h7, ?_⟩
  have hne : winkler (buildStiffness ty el (springsOf (noRot w) A C.elements.length)) F' U' R' m ≠ .raised := by
    intro hr
    rw [hr] at h
    simp at h
  rw [winkler_upto (fun kind d M hk hM => build_rot hw hA hF hk hM) F' U' R' m hne]
  exact h

/-! ### Models without rotational springs -/

/-- No layer has rotational springs along the shaft: API soils without `Mt` curves, rock, no lateral model. -/
def WithoutRotation (layers : List SoilLayer) : Prop :=
  ∀ l ∈ layers, ∀ m, l.lateral = some m → m.signature.2.2.1 = false

theorem mt_model {p : Pile.Pile ℝ} {sp : SoilProfile} {x2mesh : List ℝ} {c top tip : ℝ}
    (h : Weight.Setup p sp.geometry x2mesh c top tip) (w : Switches) (table : List (ℝ × Pile.Section ℝ)) (env : Draws)
    (hno : WithoutRotation sp.layers) {A : Arrays} (hA : modelSprings p sp x2mesh c w table env = some A)
    {C : Coordinates ℝ} (hC : getCoordinates p (some sp.geometry) x2mesh c = some C) :
    ∀ e < C.elements.length, ∀ b, A.mt e b = List.replicate 15 (List.replicate 15 (0, 0)) := by
  obtain ⟨C', S, water, hC', hS, -, -, hlay, -, -, -, helts, hrows, -⟩ := C54_mesh h w table
  rw [hC] at hC'
  cases hC'
  unfold modelSprings at hA
  rw [hS] at hA
  simp only [Option.bind_eq_bind, Option.bind_some] at hA
  intro e he b
  · rw [← helts, List.length_map] at he
    have hr : S.rows[e]? = some S.rows[e] := List.getElem?_eq_getElem he
    obtain ⟨-, -, h3, h4⟩ := hrows _ (List.getElem_mem he)
    rcases le_or_gt S.rows[e].top sp.topElevation with hle | hlt
    · obtain ⟨l, hl⟩ := (h3 hle).1
      apply (C54_mt hA hr hl b).2
      rcases hm : l.lateral with _ | m
      · exact .inl rfl
      · refine .inr (.inr ⟨m, rfl, hno l ?_ m hm⟩)
        have : l ∈ owners S S.rows[e] := by rw [hl]; exact List.mem_singleton.2 rfl
        rw [← hlay]
        exact List.mem_of_mem_filter this
    · exact (C54_outside hA hr (h4 hlt) b).2.2

theorem noTurn_zero {A : Arrays} {n : ℕ} (h : ∀ e < n, ∀ b, A.mt e b = List.replicate 15 (List.replicate 15 (0, 0))) : NoTurn A n := by
  intro e he b row hrow
  rw [h e he b] at hrow
  simp only [List.replicate_succ, List.head?_cons, Option.some.injEq] at hrow
  subst hrow
  simp

theorem solveSoilOn_springs {ty : ElementType} {p : Pile.Pile ℝ} {C : Coordinates ℝ} {w : Switches} {A B : Arrays}
    (h : springsOf w A C.elements.length = springsOf w B C.elements.length) {bcs : List (Cond ℝ)} {m : ℕ} :
    solveSoilOn ty p C w A bcs m = solveSoilOn ty p C w B bcs m := by
  unfold solveSoilOn
  simp only [h]

theorem keep_noRot {p : Pile.Pile ℝ} {sp : SoilProfile} {x2mesh : List ℝ} {c : ℝ} (w : Switches)
    {table : List (ℝ × Pile.Section ℝ)} {env : Draws} {A : Arrays} (hA : modelSprings p sp x2mesh c w table env = some A) {n : ℕ}
    (hz : ∀ e < n, ∀ b, A.mt e b = List.replicate 15 (List.replicate 15 (0, 0))) :
    springsOf (noRot w) (Switch.keep (noRot w) A) n = springsOf (noRot w) A n := by
  have e1 := Switch.C100_springs p sp x2mesh c w w ⟨id, id, id, id, id, id⟩ table env A hA
  rw [hA, Option.some.injEq] at e1
  have f1 : (Switch.keep (noRot w) A).py = A.py := by
    conv_rhs => rw [e1]
    rfl
  have f3 : (Switch.keep (noRot w) A).tz = A.tz := by
    conv_rhs => rw [e1]
    rfl
  have f4 : (Switch.keep (noRot w) A).hb = A.hb := by
    conv_rhs => rw [e1]
    rfl
  have f5 : (Switch.keep (noRot w) A).mb = A.mb := by
    conv_rhs => rw [e1]
    rfl
  have f6 : (Switch.keep (noRot w) A).qz = A.qz := by
    conv_rhs => rw [e1]
    rfl
  have f2 : ∀ (e : Fin n) b, (Switch.keep (noRot w) A).mt e.1 b = A.mt e.1 b := by
    intro e b
    rw [hz e.1 e.2 b]
    rfl
  unfold springsOf
  simp only [f1, f2, f3, f4, f5, f6]

/-- **C120.** A Model none of whose layers has rotational springs along the shaft: when its analysis returns with
`distributed_moment` turned on, it returns the same results with it turned off. -/
theorem C120_model {ty : ElementType} {p : Pile.Pile ℝ} {sp : SoilProfile} {x2mesh : List ℝ} {c top tip : ℝ}
    (h : Weight.Setup p sp.geometry x2mesh c top tip) {w : Switches} {table : List (ℝ × Pile.Section ℝ)} {env : Draws}
    (hno : WithoutRotation sp.layers) {bcs : List (Cond ℝ)} {r : SoilResult}
    (ht : solveSoil ty p sp x2mesh c w table env bcs = some r) :
    solveSoil ty p sp x2mesh c { w with distributedMoment := false } table env bcs = some r := by
  obtain ⟨C, hC, hm⟩ := NoModels.meshOn_setup h
  unfold solveSoil at ht ⊢
  simp only [hC, Option.bind_eq_bind, Option.bind_some, Option.bind_eq_some_iff] at ht ⊢
  obtain ⟨A, hA, ht⟩ := ht
  have hz := mt_model h w table env hno hA hC
  have e2 := Switch.C100_springs p sp x2mesh c (noRot w) w ⟨id, (fun g => by cases g), id, id, id, id⟩ table env A hA
  refine ⟨_, e2, ?_⟩
  have key := C120_analysis (noTurn_zero hz) ht
  rw [← solveSoilOn_springs (keep_noRot w hA hz)] at key
  exact key

/-- Each p-y table of a Model has 15 points, in a layer or above ground. -/
theorem py_model {p : Pile.Pile ℝ} {sp : SoilProfile} {x2mesh : List ℝ} {c top tip : ℝ}
    (h : Weight.Setup p sp.geometry x2mesh c top tip) (w : Switches) (table : List (ℝ × Pile.Section ℝ)) (env : Draws)
    {A : Arrays} (hA : modelSprings p sp x2mesh c w table env = some A)
    {C : Coordinates ℝ} (hC : getCoordinates p (some sp.geometry) x2mesh c = some C) :
    ∀ e < C.elements.length, ∀ b, (A.py e b).length = 15 := by
  obtain ⟨C', S, water, hC', hS, -, -, hlay, -, -, -, helts, hrows, -⟩ := C54_mesh h w table
  rw [hC] at hC'
  cases hC'
  unfold modelSprings at hA
  rw [hS] at hA
  simp only [Option.bind_eq_bind, Option.bind_some] at hA
  intro e he b
  rw [← helts, List.length_map] at he
  have hr : S.rows[e]? = some S.rows[e] := List.getElem?_eq_getElem he
  obtain ⟨-, -, h3, h4⟩ := hrows _ (List.getElem_mem he)
  rcases le_or_gt S.rows[e].top sp.topElevation with hle | hlt
  · obtain ⟨l, hl⟩ := (h3 hle).1
    obtain ⟨B, hB, rfl⟩ := Props.Assemble.create_some hA
    obtain ⟨h1, h2⟩ := Props.Assemble.element_component (fun A => A.py e b) e (fun l r i => Props.Assemble.cPy S env b l r i)
      (fun l r i A A' h => (Props.Assemble.step_facts h).py e b) hB hr
    rcases hv : Props.Assemble.cPy S env b l S.rows[e] e with _ | v
    · have := h2 (by
        intro l' hl'
        rw [hl, List.mem_singleton] at hl'
        rw [hl']
        exact hv)
      simp only at this ⊢
      rw [this]
      exact List.length_replicate
    · have := h1 l v hl hv
      simp only at this ⊢
      rw [this]
      unfold Props.Assemble.cPy at hv
      split at hv
      · cases hv
      split_ifs at hv
      simp only [pyNode, Option.bind_eq_bind, Option.bind_eq_some_iff] at hv
      obtain ⟨a, -, d, -, e4⟩ := hv
      obtain ⟨rfl, h5⟩ := Props.Assemble.store_some e4
      exact h5
  · rw [(C54_outside hA hr (h4 hlt) b).1, List.length_replicate]

/-- The springs of such a Model are the same with the switch on and off. -/
theorem springs_noRot (p : Pile.Pile ℝ) {sp : SoilProfile} (x2mesh : List ℝ) (c : ℝ) (w : Switches)
    (table : List (ℝ × Pile.Section ℝ)) (env : Draws) (hno : WithoutRotation sp.layers) :
    modelSprings p sp x2mesh c (noRot w) table env = modelSprings p sp x2mesh c w table env := by
  have key : ∀ S : Input, S.layers = sp.layers →
      createSprings { S with distributedMoment := false } env = createSprings S env := by
    intro S hS
    have fill : fillArrays { S with distributedMoment := false } env = fillArrays S env := by
      unfold fillArrays
      have gen : ∀ (ls : List SoilLayer), (∀ l ∈ ls, l ∈ sp.layers) → ∀ A : Arrays,
          ls.foldlM (fun A l => (selected { S with distributedMoment := false } l).foldlM
            (Assemble.step { S with distributedMoment := false } env l) A) A
          = ls.foldlM (fun A l => (selected S l).foldlM (Assemble.step S env l) A) A := by
        intro ls
        induction ls with
        | nil => intros; rfl
        | cons l ls ih =>
          intro hl A
          have hstep : Assemble.step { S with distributedMoment := false } env l = Assemble.step S env l := by
            funext A x
            have hlat : ∀ A, lateralStep { S with distributedMoment := false } env l x.1 x.2 A
                = lateralStep S env l x.1 x.2 A := by
              intro A
              unfold lateralStep
              rcases hm : l.lateral with _ | m
              · rfl
              have h0 := hno l (hl l List.mem_cons_self) m hm
              have h1 : ∀ A, mtStep { S with distributedMoment := false } env l m x.1 x.2 A = mtStep S env l m x.1 x.2 A := by
                intro A
                unfold mtStep
                rw [h0]
                rfl
              simp only [h1]
              rfl
            unfold Assemble.step
            simp only [hlat]
            rfl
          rw [List.foldlM_cons, List.foldlM_cons, hstep]
          congr 1
          funext B
          exact ih (fun l' h' => hl l' (List.mem_cons_of_mem _ h')) B
      exact gen S.layers (fun l hl => hS ▸ hl) Arrays.zero
    unfold createSprings
    rw [fill]
  unfold modelSprings
  unfold input
  cases (Model.soilProperties p sp.geometry x2mesh c).toOption with
  | none => rfl
  | some rows =>
    cases p.bottomElevation with
    | none => rfl
    | some t =>
      cases p.tipArea Real.pi with
      | none => rfl
      | some a =>
        cases p.tipFootprint Real.pi with
        | none => rfl
        | some b =>
          exact key { rows := rows.map (rowOf table), layers := sp.layers, ground := sp.topElevation,
                      profileBottom := sp.geometry.bottomElevation, water := sp.waterLine, tip := t, tipArea := a,
                      tipFootprint := b, distributedLateral := w.distributedLateral,
                      distributedMoment := w.distributedMoment, distributedAxial := w.distributedAxial,
                      baseShear := w.baseShear, baseMoment := w.baseMoment, baseAxial := w.baseAxial } rfl

/-- **C120, both directions.** A Model with the lateral springs on, none of whose layers has rotational springs along the
shaft: its analysis returns with `distributed_moment` turned on exactly when it returns with it turned off, and the same. -/
theorem C120_model_iff {ty : ElementType} {p : Pile.Pile ℝ} {sp : SoilProfile} {x2mesh : List ℝ} {c top tip : ℝ}
    (h : Weight.Setup p sp.geometry x2mesh c top tip) {w : Switches} (hw : w.distributedLateral = true)
    {table : List (ℝ × Pile.Section ℝ)} {env : Draws} (hno : WithoutRotation sp.layers)
    {bcs : List (Cond ℝ)} {r : SoilResult} :
    solveSoil ty p sp x2mesh c w table env bcs = some r ↔
      solveSoil ty p sp x2mesh c { w with distributedMoment := false } table env bcs = some r := by
  refine ⟨C120_model h hno, fun ht => ?_⟩
  obtain ⟨C, hC, hm⟩ := NoModels.meshOn_setup h
  unfold solveSoil at ht ⊢
  simp only [hC, Option.bind_eq_bind, Option.bind_some, Option.bind_eq_some_iff] at ht ⊢
  obtain ⟨A, hA, ht⟩ := ht
  rw [show modelSprings p sp x2mesh c { w with distributedMoment := false } table env = _ from
    springs_noRot p x2mesh c w table env hno] at hA
  have hz := mt_model h w table env hno hA hC
  have hpy := py_model h w table env hA hC
  refine ⟨A, hA, ?_⟩
  rw [C120_analysis_iff hw (noTurn_zero hz) (fun e he b => ⟨?_, ?_⟩)]
  · exact ht
  · intro g
    have := hpy e he b
    rw [g] at this
    cases this
  · rw [hz e he b]
    simp

theorem first_off {w : Switches} {A : Arrays} {n : ℕ} {rows : List (ℝ × ℝ × ℝ)} (h : OnFirstBranch w A n rows) :
    OnFirstBranch (noRot w) A n rows := by
  obtain ⟨d, hd, hs⟩ := h
  exact ⟨d, hd, hs.others, fun g => by cases g⟩

/-! ### the comparisons with the switch on -/

/-- **C119 with rotational springs turned on (partial).** As `C119_partial`, for any switches, where no layer has rotational
springs along the shaft. -/
theorem C119_default_partial {ty : ElementType} {p : Pile.Pile ℝ} {sp : SoilProfile} {x2mesh : List ℝ} {c top tip : ℝ}
    (h : Weight.Setup p sp.geometry x2mesh c top tip) (hp : Accepted ty p top tip) {w : Switches}
    (hno : WithoutRotation sp.layers) {table : List (ℝ × Pile.Section ℝ)} {env : Draws} {f : SoilLayer → Factors}
    (hf : Higher f sp.layers) {calls : List (Call ℝ)} (hc : ∀ k ∈ calls, Spec.BC.kind k ≠ .displacement) {t t' : SoilTables}
    (ht : solveSoil ty p sp x2mesh c w table env (run [] calls) = some (.numbers t))
    (ht' : solveSoil ty p (raised f sp) x2mesh c w table env (run [] calls) = some (.numbers t'))
    (first : ∀ C A, getCoordinates p (some sp.geometry) x2mesh c = some C → modelSprings p sp x2mesh c w table env = some A →
      OnFirstBranch w A C.elements.length (t.disp.map (·.2)))
    (first' : ∀ C A, getCoordinates p (some sp.geometry) x2mesh c = some C →
      modelSprings p (raised f sp) x2mesh c w table env = some A → OnFirstBranch w A C.elements.length (t'.disp.map (·.2))) :
    ∃ C g, getCoordinates p (some sp.geometry) x2mesh c = some C ∧ globalForces C.nodes (run [] calls) = .ok g ∧
      -(extent t'.disp * t'.error) ≤ virtualWork g t'.disp ∧
      virtualWork g t'.disp ≤ virtualWork g t.disp + extent t'.disp * t'.error
        + (2 * extent t'.disp + extent t.disp) * t.error := by
  obtain ⟨C, hC, hm⟩ := NoModels.meshOn_setup h
  obtain ⟨A, A', hA, hA', s, s'⟩ := analyses hC ht ht'
  have h' : Weight.Setup p (raised f sp).geometry x2mesh c top tip := by rw [raised_geometry]; exact h
  have hno' : WithoutRotation (raised f sp).layers := by
    intro l hl m hm
    obtain ⟨l₀, hl₀, rfl⟩ := List.mem_map.1 hl
    obtain ⟨m₀, hm₀, rfl⟩ := Option.map_eq_some_iff.1 hm
    rw [withP_signature]
    exact hno l₀ hl₀ m₀ hm₀
  have s1 := C120_analysis (noTurn_zero (mt_model h w table env hno hA hC)) s
  have s1' := C120_analysis (noTurn_zero (mt_model h' w table env hno' hA' (by rw [raised_geometry]; exact hC))) s'
  have hh := Compliance.moreHeld_calls C.nodes calls [] hc (fun k hk => by cases hk)
  rw [List.append_nil] at hh
  obtain ⟨g, hg, h1, h2⟩ := C116_tables_partial ty ty p p top tip hp hp (SoilSupport.stiffer_refl Real.pi ty hp.stack) C hm hm _ _
    hh (noRot w) (noRot w) A A' (springs_raised_off h w table env f hf hA hA' hC) (.inl rfl) (.inl rfl) t t' s1 s1'
    (first_off (first C A hC hA)) (first_off (first' C A' hC hA'))
  exact ⟨C, g, hC, hg, h1, h2⟩

/-- **C116 with rotational springs turned on (partial).** As `C116_switches_partial`, for any switches, where no layer has
rotational springs along the shaft. -/
theorem C116_default_partial {ty : ElementType} {p : Pile.Pile ℝ} {sp : SoilProfile} {x2mesh : List ℝ} {c top tip : ℝ}
    (h : Weight.Setup p sp.geometry x2mesh c top tip) (hp : Accepted ty p top tip) {v w : Switches}
    (hvw : Switch.Fewer v w) (hno : WithoutRotation sp.layers) {table : List (ℝ × Pile.Section ℝ)} {env : Draws}
    {C : Coordinates ℝ} (hC : getCoordinates p (some sp.geometry) x2mesh c = some C) {A : Arrays}
    (hA : modelSprings p sp x2mesh c w table env = some A) {calls : List (Call ℝ)}
    (hc : ∀ k ∈ calls, Spec.BC.kind k ≠ .displacement) {t t' : SoilTables}
    (ht : solveSoil ty p sp x2mesh c v table env (run [] calls) = some (.numbers t))
    (ht' : solveSoil ty p sp x2mesh c w table env (run [] calls) = some (.numbers t'))
    (first : OnFirstBranch v A C.elements.length (t.disp.map (·.2)))
    (first' : OnFirstBranch w A C.elements.length (t'.disp.map (·.2))) :
    ∃ g, globalForces C.nodes (run [] calls) = .ok g ∧ -(extent t'.disp * t'.error) ≤ virtualWork g t'.disp ∧
      virtualWork g t'.disp ≤ virtualWork g t.disp + extent t'.disp * t'.error
        + (2 * extent t'.disp + extent t.disp) * t.error := by
  obtain ⟨C', hC', hm⟩ := NoModels.meshOn_setup h
  rw [hC] at hC'
  cases hC'
  have e2 := Switch.C100_springs p sp x2mesh c (noRot w) w ⟨id, (fun g => by cases g), id, id, id, id⟩ table env A hA
  have e1 := Switch.C100_springs p sp x2mesh c w w ⟨id, id, id, id, id, id⟩ table env A hA
  rw [hA, Option.some.injEq] at e1
  have swap : ∀ (x : Switches) (rows : List (ℝ × ℝ × ℝ)), OnFirstBranch x A C.elements.length rows →
      OnFirstBranch (noRot x) (Switch.keep (noRot w) A) C.elements.length rows := by
    intro x rows hx
    obtain ⟨d, hd, hs⟩ := first_off hx
    have f1 : (Switch.keep (noRot w) A).py = A.py := by
      conv_rhs => rw [e1]
      rfl
    have f3 : (Switch.keep (noRot w) A).tz = A.tz := by
      conv_rhs => rw [e1]
      rfl
    have f4 : (Switch.keep (noRot w) A).hb = A.hb := by
      conv_rhs => rw [e1]
      rfl
    have f5 : (Switch.keep (noRot w) A).mb = A.mb := by
      conv_rhs => rw [e1]
      rfl
    have f6 : (Switch.keep (noRot w) A).qz = A.qz := by
      conv_rhs => rw [e1]
      rfl
    obtain ⟨⟨a1, a2, a3, a4, a5, a6⟩, a7⟩ := hs
    refine ⟨d, hd, ⟨⟨?_, ?_, rfl, ?_, ?_, ?_⟩, fun g => by cases g⟩⟩
    · simpa only [springsOf, f1] using a1
    · simpa only [springsOf, f3] using a2
    · simpa only [springsOf, f4] using a4
    · simpa only [springsOf, f5] using a5
    · simpa only [springsOf, f6] using a6
  have hf : Switch.Fewer (noRot v) (noRot w) := ⟨hvw.lateral, (fun g => by cases g), hvw.axial, hvw.shear, hvw.base, hvw.tip⟩
  exact C116_switches_partial ty p top tip hp sp x2mesh c (noRot v) (noRot w) hf (fun g => by cases g) table env C hC hm _ e2 (.inl rfl)
    calls hc t t' (C120_model h hno ht) (C120_model h hno ht') (swap v _ first) (swap w _ first')

/-- **C84 with rotational springs turned on (partial).** A pile in soils without rotational springs along the shaft and the
same pile without soil on the same mesh: the loads do at most the work they do without soil, for any switches. -/
theorem C84_default_partial {ty : ElementType} {p : Pile.Pile ℝ} {sp : SoilProfile} {x2mesh : List ℝ} {c top tip : ℝ}
    (h : Weight.Setup p sp.geometry x2mesh c top tip) (hp : Accepted ty p top tip) {w : Switches}
    (hno : WithoutRotation sp.layers) {table : List (ℝ × Pile.Section ℝ)} {env : Draws} {calls : List (Call ℝ)}
    (hc : ∀ k ∈ calls, Spec.BC.kind k ≠ .displacement) {C : Coordinates ℝ}
    (hC : getCoordinates p (some sp.geometry) x2mesh c = some C) {T : Tables ℝ} {t : SoilTables}
    (hT : solveOn Real.pi ty p C (run [] calls) = some T)
    (ht : solveSoil ty p sp x2mesh c w table env (run [] calls) = some (.numbers t)) :
    ∃ g, globalForces C.nodes (run [] calls) = .ok g ∧ -(extent t.disp * t.error) ≤ virtualWork g t.disp ∧
      virtualWork g t.disp ≤ virtualWork g T.disp + extent t.disp * t.error := by
  obtain ⟨C', hC', hm⟩ := NoModels.meshOn_setup h
  rw [hC] at hC'
  cases hC'
  unfold solveSoil at ht
  simp only [hC, Option.bind_eq_bind, Option.bind_some, Option.bind_eq_some_iff] at ht
  obtain ⟨A, hA, ht⟩ := ht
  exact SoilSupport.C84_same_pile_partial ty p top tip hp C hm calls hc (noRot w) A (.inl rfl) T t hT
    (C120_analysis (noTurn_zero (mt_model h w table env hno hA hC)) ht)

/-- **C115 with rotational springs turned on (partial).** A pile in soils without rotational springs along the shaft moves
towards its loads, for any switches and element types: the loads do no negative work, and under one load the node it acts on
does not move the other way, up to the reported residual. -/
theorem C115_default_partial {ty : ElementType} {p : Pile.Pile ℝ} {sp : SoilProfile} {x2mesh : List ℝ} {c top tip : ℝ}
    (h : Weight.Setup p sp.geometry x2mesh c top tip) (hp : Accepted ty p top tip) {w : Switches}
    (hno : WithoutRotation sp.layers) {table : List (ℝ × Pile.Section ℝ)} {env : Draws} {calls : List (Call ℝ)}
    (hc : ∀ k ∈ calls, Spec.BC.kind k ≠ .displacement) {C : Coordinates ℝ}
    (hC : getCoordinates p (some sp.geometry) x2mesh c = some C) {t : SoilTables}
    (ht : solveSoil ty p sp x2mesh c w table env (run [] calls) = some (.numbers t)) :
    ∃ g, globalForces C.nodes (run [] calls) = .ok g ∧ -(extent t.disp * t.error) ≤ virtualWork g t.disp ∧
      (t.error = 0 → (∃ ax i v, At g ax i v ∧ v ≠ 0 ∧ Free C.nodes (run [] calls) ax i) → 0 < virtualWork g t.disp) ∧
      ∀ ax i v, Towards.OnlyLoad g ax i v → ∃ r, t.disp[i]? = some r ∧ C.nodes[i]? = some r.1 ∧
        -(extent t.disp * t.error) ≤ v * Towards.inRow ax r ∧
        (t.error = 0 → v ≠ 0 → Free C.nodes (run [] calls) ax i → 0 < v * Towards.inRow ax r) := by
  obtain ⟨C', hC', hm⟩ := NoModels.meshOn_setup h
  rw [hC] at hC'
  cases hC'
  unfold solveSoil at ht
  simp only [hC, Option.bind_eq_bind, Option.bind_some, Option.bind_eq_some_iff] at ht
  obtain ⟨A, hA, ht⟩ := ht
  exact Towards.C115_calls_partial ty p top tip hp C hm calls hc (noRot w) A (.inl rfl) t
    (C120_analysis (noTurn_zero (mt_model h w table env hno hA hC)) ht)

/-- **C59, balance of moments, any tables without rotations (partial).** For any switches and element types, about any
elevation `z0`. -/
theorem C59_moment_noTurn_partial {ty : ElementType} {p : Pile.Pile ℝ} {top tip : ℝ} (hp : Stack p top tip)
    (hreg : ∀ s ∈ p.sections, ∀ L : ℝ, 0 < L → Refine.Regular ty (elemOf Real.pi p.material s L)) {C : Coordinates ℝ}
    (h : MeshOn p top tip C) {w : Switches} {A : Arrays} (hA : NoTurn A C.elements.length)
    {bcs : List (Cond ℝ)} {t : SoilTables}
    (ht : solveSoilOn ty p C w A bcs 100 = some (.numbers t)) (hu : Unheld C.nodes bcs .y) (hx : Unheld C.nodes bcs .x) :
    ∃ (n : ℕ) (z s y r : Fin (n + 1) → ℝ) (py tz mt : Fin n → Bool → ℝ) (hh m q : ℝ) (g : Nodal ℤ) (H M : Fin (n + 1) → ℝ),
      C.nodes = List.ofFn z ∧ Listed t.toTables z s y r ∧ ReadSprings (noRot w) A s y r py tz mt hh m q ∧
      globalForces C.nodes bcs = .ok g ∧ g.y.map (fun i : ℤ => (i : ℝ)) = List.ofFn H ∧
      g.x.map (fun i : ℤ => (i : ℝ)) = List.ofFn M ∧ ∀ z0 : ℝ,
      |∑ j, (M j + (z0 - z j) * H j)
        - (∑ i, (lateralMomentOf z s y r py z0 i + (mt i false + mt i true) / 2 * (y i.succ - y i.castSucc))
          + hh * (z0 - z (Fin.last n)) * y (Fin.last n) + m * r (Fin.last n))|
        ≤ Real.sqrt (∑ j, ((z0 - z j) ^ 2 + 1)) * t.error :=
  C59_tables_moment_partial hp hreg h (w := noRot w) (.inr rfl) (C120_analysis hA ht) hu hx

/-- **C85 with rotational springs turned on (partial).** As `C85_soil_calls_partial`, with the switches of lateral and
rotational springs on, for tables without rotations and both element types. -/
theorem C85_default_partial (ty : ElementType) (p : Pile.Pile ℝ) (top tip : ℝ) (hp : Accepted ty p top tip) (C : Coordinates ℝ)
    (hm : MeshOn p top tip C) (w : Switches) (hlat : w.distributedLateral = true) (A : Arrays) (hA : NoTurn A C.elements.length)
    (hF : Filled A C.elements.length) (h : List (Call ℝ)) (e : ℝ) (j : ℕ)
    (hj : Spec.BC.ActsAt C.nodes e j) (a : _) (q : ℤ) (hq : q ≠ 0) (hs : ∀ cls, Control.Silent C.nodes h cls e j a) (t : SoilTables)
    (ht : solveSoilOn ty p C w A (run [] (h ++ [Control.loadCall e a q])) 100 = some (.numbers t)) (e0 : t.error = 0)
    (first : OnFirstBranch w A C.elements.length (t.disp.map (·.2))) (row : ℝ × ℝ × ℝ × ℝ)
    (hrow : t.disp[j]? = some row) (hw : Control.listed row a ≠ 0) :
    ∃ t', solveSoilOn ty p C w A (run [] (h ++ [Control.dispCall e a (Control.listed row a)])) 100 = some (.numbers t') ∧ t'.error = 0 ∧
      t'.disp = t.disp ∧ t'.forces = t.forces ∧ t'.mob = t.mob ∧ t'.hbMob = t.hbMob ∧ t'.mbMob = t.mbMob ∧
      (∀ r, r.1 ≠ row.1 → (r ∈ t'.reactions ↔ r ∈ t.reactions)) ∧
      ∃ r' ∈ t'.reactions, r'.1 = row.1 ∧ comp (Control.place a).1 r' = q ∧
        ∀ r ∈ t.reactions, r.1 = row.1 → ∀ b, b ≠ a → comp (Control.place b).1 r' = comp (Control.place b).1 r := by
  obtain ⟨t', t1, rest⟩ := ControlSoil.C85_soil_calls_partial ty p top tip hp C hm (noRot w) A (.inl rfl) h e j hj a q hq hs t
    (C120_analysis hA ht) e0 (first_off first) row hrow hw
  exact ⟨t', (C120_analysis_iff hlat hA hF).2 t1, rest⟩

/-- Tables of a Model without rotational springs have 15 points each, and no rotations. -/
theorem blank_model {p : Pile.Pile ℝ} {sp : SoilProfile} {x2mesh : List ℝ} {c top tip : ℝ}
    (h : Weight.Setup p sp.geometry x2mesh c top tip) (w : Switches) (table : List (ℝ × Pile.Section ℝ)) (env : Draws)
    (hno : WithoutRotation sp.layers) {A : Arrays} (hA : modelSprings p sp x2mesh c w table env = some A)
    {C : Coordinates ℝ} (hC : getCoordinates p (some sp.geometry) x2mesh c = some C) :
    NoTurn A C.elements.length ∧ Filled A C.elements.length := by
  have hz := mt_model h w table env hno hA hC
  refine ⟨noTurn_zero hz, fun e he b => ⟨fun g => ?_, ?_⟩⟩
  · have := py_model h w table env hA hC e he b
    rw [g] at this
    cases this
  · rw [hz e he b]
    simp

/-- **C85 from the Model (partial).** With the switch of lateral springs on and no layer with rotational springs along the shaft,
for both element types: a load that is replaced by the displacement it causes. -/
theorem C85_model_default_partial (ty : ElementType) {p : Pile.Pile ℝ} {sp : SoilProfile} {x2mesh : List ℝ} {c top tip : ℝ}
    (h : Weight.Setup p sp.geometry x2mesh c top tip) (hp : Accepted ty p top tip) (w : Switches) (hlat : w.distributedLateral = true)
    (hno : WithoutRotation sp.layers) {table : List (ℝ × Pile.Section ℝ)} {env : Draws} {C : Coordinates ℝ}
    (hC : getCoordinates p (some sp.geometry) x2mesh c = some C) (calls : List (Call ℝ)) (e : ℝ) (j : ℕ)
    (hj : Spec.BC.ActsAt C.nodes e j) (a : _) (q : ℤ) (hq : q ≠ 0) (hs : ∀ cls, Control.Silent C.nodes calls cls e j a)
    (t : SoilTables)
    (ht : solveSoil ty p sp x2mesh c w table env (run [] (calls ++ [Control.loadCall e a q])) = some (.numbers t)) (e0 : t.error = 0)
    (first : ∀ A, modelSprings p sp x2mesh c w table env = some A → OnFirstBranch w A C.elements.length (t.disp.map (·.2)))
    (row : ℝ × ℝ × ℝ × ℝ) (hrow : t.disp[j]? = some row) (hw : Control.listed row a ≠ 0) :
    ∃ t', solveSoil ty p sp x2mesh c w table env (run [] (calls ++ [Control.dispCall e a (Control.listed row a)]))
        = some (.numbers t') ∧ t'.error = 0 ∧
      t'.disp = t.disp ∧ t'.forces = t.forces ∧ t'.mob = t.mob ∧ t'.hbMob = t.hbMob ∧ t'.mbMob = t.mbMob ∧
      (∀ r, r.1 ≠ row.1 → (r ∈ t'.reactions ↔ r ∈ t.reactions)) ∧
      ∃ r' ∈ t'.reactions, r'.1 = row.1 ∧ comp (Control.place a).1 r' = q ∧
        ∀ r ∈ t.reactions, r.1 = row.1 → ∀ b, b ≠ a → comp (Control.place b).1 r' = comp (Control.place b).1 r := by
  obtain ⟨C', hC', hm⟩ := NoModels.meshOn_setup h
  rw [hC] at hC'
  cases hC'
  unfold solveSoil at ht ⊢
  simp only [hC, Option.bind_eq_bind, Option.bind_some, Option.bind_eq_some_iff] at ht ⊢
  obtain ⟨A, hA, ht⟩ := ht
  obtain ⟨b1, b2⟩ := blank_model h w table env hno hA hC
  obtain ⟨t', t1, rest⟩ := C85_default_partial ty p top tip hp C hm w hlat A b1 b2 calls e j hj a q hq hs t ht e0 (first A hA)
    row hrow hw
  exact ⟨t', ⟨A, hA, t1⟩, rest⟩

/-- **C59, balance of moments with rotational springs turned on (partial).** In soils without rotational springs along the
shaft, for any switches and element types, about any elevation `z0`. -/
theorem C59_moment_default_partial {ty : ElementType} {p : Pile.Pile ℝ} {sp : SoilProfile} {x2mesh : List ℝ} {c top tip : ℝ}
    (h : Weight.Setup p sp.geometry x2mesh c top tip)
    (hreg : ∀ s ∈ p.sections, ∀ L : ℝ, 0 < L → Refine.Regular ty (elemOf Real.pi p.material s L)) {w : Switches}
    (hno : WithoutRotation sp.layers) {table : List (ℝ × Pile.Section ℝ)} {env : Draws} {bcs : List (Cond ℝ)} {C : Coordinates ℝ}
    (hC : getCoordinates p (some sp.geometry) x2mesh c = some C) {t : SoilTables}
    (ht : solveSoil ty p sp x2mesh c w table env bcs = some (.numbers t)) (hu : Unheld C.nodes bcs .y) (hx : Unheld C.nodes bcs .x) :
    ∃ A, modelSprings p sp x2mesh c w table env = some A ∧
    ∃ (n : ℕ) (z s y r : Fin (n + 1) → ℝ) (py tz mt : Fin n → Bool → ℝ) (hh m q : ℝ) (g : Nodal ℤ) (H M : Fin (n + 1) → ℝ),
      C.nodes = List.ofFn z ∧ Listed t.toTables z s y r ∧ ReadSprings (noRot w) A s y r py tz mt hh m q ∧
      globalForces C.nodes bcs = .ok g ∧ g.y.map (fun i : ℤ => (i : ℝ)) = List.ofFn H ∧
      g.x.map (fun i : ℤ => (i : ℝ)) = List.ofFn M ∧ ∀ z0 : ℝ,
      |∑ j, (M j + (z0 - z j) * H j)
        - (∑ i, (lateralMomentOf z s y r py z0 i + (mt i false + mt i true) / 2 * (y i.succ - y i.castSucc))
          + hh * (z0 - z (Fin.last n)) * y (Fin.last n) + m * r (Fin.last n))|
        ≤ Real.sqrt (∑ j, ((z0 - z j) ^ 2 + 1)) * t.error := by
  obtain ⟨C', hC', hm⟩ := NoModels.meshOn_setup h
  rw [hC] at hC'
  cases hC'
  unfold solveSoil at ht
  simp only [hC, Option.bind_eq_bind, Option.bind_some, Option.bind_eq_some_iff] at ht
  obtain ⟨A, hA, ht⟩ := ht
  exact ⟨A, hA, C59_tables_moment_partial (NoModels.stack_setup h) hreg hm (w := noRot w) (.inr rfl)
    (C120_analysis (noTurn_zero (mt_model h w table env hno hA hC)) ht) hu hx⟩

/-! ### concrete cases -/

open OpenPile.Props.Creation (tube soil created clay sound_clay)
open OpenPile.Props.Assemble (drawsExample setup_example)

/-- API clay without moment-rotation curves has no rotational springs; with all switches on the springs of the tube are made and
resist no rotation. -/
example : WithoutRotation (soil (.matlock (clay false))).layers ∧
    ∃ C A, getCoordinates tube (some (soil (.matlock (clay false))).geometry) [] 1 = some C ∧
      modelSprings tube (soil (.matlock (clay false))) [] 1 ⟨true, true, true, true, true, true⟩ (Model.stableRows tube) drawsExample
        = some A ∧ NoTurn A C.elements.length := by
  have hno : WithoutRotation (soil (.matlock (clay false))).layers := by
    intro l hl m hm
    simp only [soil, List.mem_singleton] at hl
    subst hl
    cases hm
    rfl
  obtain ⟨C, S, -, -, -, A, hC, hS, -, -, -, -, -, -, -, -, hA⟩ := created (sound_clay false) ⟨true, true, true, true, true, true⟩
  have e : modelSprings tube (soil (.matlock (clay false))) [] 1 ⟨true, true, true, true, true, true⟩ (Model.stableRows tube)
      drawsExample = some A := by
    rw [modelSprings, hS]; exact hA
  exact ⟨hno, C, A, hC, e, noTurn_zero (mt_model (setup_example _ _) _ _ _ hno e hC)⟩

/-- A loaded pile in a profile without soil models with all switches on: its analysis returns, and the same with the rotational
springs turned off. -/
example (table : List (ℝ × Pile.Section ℝ)) (env : Draws) :
    ∃ t, solveSoil .timoshenko NoModels.pileN NoModels.soilN [] 1 ⟨true, true, true, true, true, true⟩ table env NoModels.bcsN
        = some (.numbers t) ∧
      solveSoil .timoshenko NoModels.pileN NoModels.soilN [] 1 ⟨true, false, true, true, true, true⟩ table env NoModels.bcsN
        = some (.numbers t) := by
  obtain ⟨t, ht, -⟩ := NoModels.solvedN ⟨true, true, true, true, true, true⟩ (fun _ => rfl) table env
  refine ⟨t, ht, C120_model (setup_example none none) ?_ ht⟩
  intro l hl m hm
  simp only [List.mem_singleton] at hl
  subst hl
  cases hm

/-- The hypotheses of `C115_default_partial` are met by the same pile with all switches on, its head loaded by
`set_pointload` and its tip held by `set_support`. -/
example (table : List (ℝ × Pile.Section ℝ)) (env : Draws) :
    ∃ t C calls, (∀ k ∈ calls, Spec.BC.kind k ≠ .displacement) ∧
      getCoordinates NoModels.pileN (some NoModels.soilN.geometry) [] 1 = some C ∧
      solveSoil .timoshenko NoModels.pileN NoModels.soilN [] 1 ⟨true, true, true, true, true, true⟩ table env (run [] calls)
        = some (.numbers t) ∧
      ∃ g, globalForces C.nodes (run [] calls) = .ok g ∧ -(extent t.disp * t.error) ≤ virtualWork g t.disp := by
  obtain ⟨t, ht, -⟩ := NoModels.solvedN ⟨true, true, true, true, true, true⟩ (fun _ => rfl) table env
  have hset : Weight.Setup NoModels.pileN NoModels.soilN.geometry [] 1 1 (-10) := setup_example none none
  obtain ⟨C, hC, -⟩ := NoModels.meshOn_setup hset
  have hr : run [] [Call.pointload 1 (some 100) none none, .support (-10) (some true) (some true) (some true)]
      = NoModels.bcsN := by
    simp [run, BC.step, setPointload, setSupport, updateBc, NoModels.bcsN]
  have hk : ∀ k ∈ [Call.pointload (1 : ℝ) (some 100) none none, .support (-10) (some true) (some true) (some true)],
      Spec.BC.kind k ≠ .displacement := by
    intro k hk
    simp only [List.mem_cons, List.not_mem_nil, or_false] at hk
    rcases hk with rfl | rfl <;> simp [Spec.BC.kind]
  have hp : Accepted .timoshenko NoModels.pileN 1 (-10) := by
    refine ⟨⟨78, 210000000, 3 / 10, ?_⟩, (fun _ => ?_), NoModels.stack_setup hset, ?_⟩
    · unfold Pile.mkMaterial
      norm_num [Pile.steel, NoModels.pileN]
    · norm_num [Pile.steel, NoModels.pileN]
    · intro s hs
      simp only [NoModels.pileN, List.mem_cons, List.not_mem_nil, or_false] at hs
      subst hs
      refine ⟨?_, by norm_num⟩
      rw [Pile.built_iff]
      norm_num
  rw [← hr] at ht
  obtain ⟨g, hg, h1, -⟩ := C115_default_partial hset hp (by
    intro l hl m hm
    simp only [NoModels.soilN, List.mem_singleton] at hl
    subst hl
    cases hm) hk hC ht
  exact ⟨t, C, _, hk, hC, ht, g, hg, h1⟩

/-- A pile in soil without any support, loaded at both ends, with the switches of lateral and rotational springs on: its
analysis returns, as with the rotational springs off. -/
example : ∃ t, solveSoilOn .eulerBernoulli pileS meshS ⟨true, true, true, true, true, true⟩ arraysS bcsS 100 = some (.numbers t) ∧
    t.error = 0 ∧ NoTurn arraysS meshS.elements.length ∧ Filled arraysS meshS.elements.length := by
  obtain ⟨t, ht, -, he⟩ := solvedS
  have hA : NoTurn arraysS meshS.elements.length := by
    intro e _ b row hr
    simp only [arraysS, List.head?_cons, Option.some.injEq] at hr
    subst hr
    simp
  have hF : Filled arraysS meshS.elements.length := fun e _ b => ⟨by simp [arraysS], by simp [arraysS]⟩
  exact ⟨t, (C120_analysis_iff (w := ⟨true, true, true, true, true, true⟩) rfl hA hF).2 ht, he, hA, hF⟩

open OpenPile.Props.SoilSupport (acceptedT headT headT_range idx0 idx1)
open OpenPile.Props.Superpose (caseP solvedP readP branchP)
open OpenPile.Props.Control (acts_head not_acts_head loadCall dispCall)
open OpenPile.Props.BC (C13_histories_never_raise)
open OpenPile.Props.ControlSoil (heldP silentP)

/-- The hypotheses of `C85_default_partial` are met: a load at the head of a pile in soil with all switches on, and the
displacement it causes prescribed there instead. -/
example (P : ℤ) (h0 : 0 < P) (h1 : P ≤ 60) :
    ∃ t t' row, solveSoilOn .eulerBernoulli pileS meshS ⟨true, true, true, true, true, true⟩ arraysS
        (run [] (heldP ++ [loadCall 1 .y (P : ℝ)])) 100 = some (.numbers t) ∧ t.disp[0]? = some row ∧ Control.listed row .y ≠ 0 ∧
      solveSoilOn .eulerBernoulli pileS meshS ⟨true, true, true, true, true, true⟩ arraysS
        (run [] (heldP ++ [dispCall 1 .y (Control.listed row .y)])) 100 = some (.numbers t') ∧ t'.disp = t.disp ∧
      ∃ r' ∈ t'.reactions, comp (Control.place .y).1 r' = P := by
  obtain ⟨t, ht, hd, he⟩ := solvedP P h0 h1
  obtain ⟨g1, g2, g3⟩ := readP P h0.ne'
  obtain ⟨r0, r1⟩ := headT_range
  have hP0 : (0 : ℝ) < P := by exact_mod_cast h0
  have hP1 : (P : ℝ) ≤ 60 := by exact_mod_cast h1
  have hrun : run [] (heldP ++ [loadCall 1 .y (P : ℝ)]) = [⟨.fixation, 1, some (.flag true), none, none⟩,
      ⟨.fixation, 0, some (.flag true), some (.flag true), some (.flag true)⟩, ⟨.force, 1, none, some (.num P), none⟩] := by
    simp [run, heldP, loadCall, BC.step, setPointload, setSupport, updateBc, Cond.isAt]
  have e1 : globalForces meshS.nodes (run [] (heldP ++ [loadCall 1 .y (P : ℝ)])) = globalForces meshS.nodes (caseP P) := by
    rw [g1]
    unfold globalForces
    rw [C13_histories_never_raise, hrun]
    simp [meshS, applyBc, applyOne, idx1, writeAxis, Val.truthy, storeInt, h0.ne']
  have e2 : globalDisp meshS.nodes (run [] (heldP ++ [loadCall 1 .y (P : ℝ)])) = globalDisp meshS.nodes (caseP P) := by
    rw [g2]
    unfold globalDisp
    rw [C13_histories_never_raise, hrun]
    simp [meshS, applyBc, applyOne]
  have e3 : globalRestrained meshS.nodes (run [] (heldP ++ [loadCall 1 .y (P : ℝ)])) = globalRestrained meshS.nodes (caseP P) := by
    rw [g3]
    unfold globalRestrained
    rw [C13_histories_never_raise, hrun]
    simp [meshS, applyBc, applyOne, idx0, idx1, writeAxis, Val.truthy, storeBool]
  have hsame : solveSoilOn .eulerBernoulli pileS meshS switchesS arraysS (run [] (heldP ++ [loadCall 1 .y (P : ℝ)])) 100
      = some (.numbers t) := by
    rw [← ht]
    unfold solveSoilOn
    rw [e1, e2, e3]
  have hrow : t.disp[0]? = some (1, 0, P / 60 * headT, 0) := by rw [hd]; rfl
  have hne : Control.listed ((1 : ℝ), (0 : ℝ), (P : ℝ) / 60 * headT, (0 : ℝ)) .y ≠ 0 := (mul_pos (by positivity) r0).ne'
  have hA : NoTurn arraysS meshS.elements.length := by
    intro e _ b row hr
    simp only [arraysS, List.head?_cons, Option.some.injEq] at hr
    subst hr
    simp
  have hF : Filled arraysS meshS.elements.length := fun e _ b => ⟨by simp [arraysS], by simp [arraysS]⟩
  have hon := (C120_analysis_iff (w := ⟨true, true, true, true, true, true⟩) rfl hA hF).2 hsame
  obtain ⟨t', k1, -, k2, -, -, -, -, -, r', k3, -, k4, -⟩ := C85_default_partial .eulerBernoulli pileS 1 0 acceptedT meshS meshOnS
    ⟨true, true, true, true, true, true⟩ rfl arraysS hA hF heldP 1 0 acts_head .y P h0.ne' silentP t hon he (by
      rw [hd]
      obtain ⟨d, h2, h3⟩ := branchP ((P : ℝ) / 60) (by positivity) (by rw [div_le_one (by norm_num)]; exact hP1)
      exact ⟨d, h2, h3.others, fun _ e b => .inl ⟨_, rfl, by simp⟩⟩) _ hrow hne
  exact ⟨t, t', _, hon, hrow, hne, k1, k2, r', k3, k4⟩

end OpenPile.Props.NoRotation

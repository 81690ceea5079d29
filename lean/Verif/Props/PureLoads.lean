/-
C71 in soil, whatever the number of iterations: loads along the axis alone cause no deflection, loads across the axis alone no settlement.
-/
import Verif.Props.Pull
import Verif.Props.SoilAnalysis
import Verif.Props.SoilSupport
import Verif.Props.SessionLook

namespace OpenPile.Props.PureLoads
open OpenPile.Kernel OpenPile.Winkler OpenPile.Result OpenPile.BC OpenPile.Mesh OpenPile.Analysis
open OpenPile.Spring (Kind)
open OpenPile.Props.SoilAnalysis (solveSoilOn_numbers)
open OpenPile.Props.Mirror OpenPile.Assemble OpenPile.SoilAnalysis Matrix
open OpenPile.Props.MirrorModel (mirrorCall mirrorCond mirrorTables Numbers run_numbers run_mirror forces_mirror disp_mirror tables_mirror
  dofList_mirror asVec_alt cast_alt mirrorNodal)
open OpenPile.Props.Pull (pullCall pullTables pullCond run_pull forces_pull disp_pull tables_pull upside upside_signs uncoupled_upside
  dofList_pull asVec_turn cast_turn pullNodal)

/-! ### the iteration keeps the symmetry of the loads -/

section loop
variable {ι K : Type} [Fintype ι] [DecidableEq ι] [Field K] [LinearOrder K] [IsStrictOrderedRing K]

theorem mulVec_fixed {σ : ι → K} (A : Matrix ι ι K) (hA : Uncoupled σ A) {v : ι → K} (hv : Mirror.flip σ v = v) :
    Mirror.flip σ (A *ᵥ v) = A *ᵥ v := by
  rw [← mulVec_flip A hA, hv]

theorem solve_fixed {σ : ι → K} (hσ : Signs σ) {A : Matrix ι ι K} (hA : Uncoupled σ A) {F U : ι → K} (hF : Mirror.flip σ F = F)
    (hU : Mirror.flip σ U = U) {restr : ι → Bool} {u Q : ι → K} (h : solveEquations A F U restr = some (u, Q)) :
    Mirror.flip σ u = u ∧ Mirror.flip σ Q = Q := by
  have := solve_flip hσ A hA F U restr
  rw [hF, hU, h, Option.map_some, Option.some.injEq, Prod.mk.injEq] at this
  exact ⟨this.1.symm, this.2.symm⟩

theorem loop_fixed {σ : ι → K} (hσ : Signs σ) {build : Kind → (ι → K) → Option (Matrix ι ι K)}
    (hb : ∀ kind u A, build kind u = some A → Uncoupled σ A) {F U0 : ι → K} (hF : Mirror.flip σ F = F) (hU0 : Mirror.flip σ U0 = U0)
    (sup : ι → Bool) (fuel : ℕ) : ∀ (it : ℕ) (d : ι → K) (A : Matrix ι ι K) (U Rg Q : ι → K) (t r : K), Uncoupled σ A →
      Mirror.flip σ d = d → Mirror.flip σ U = U → Mirror.flip σ Rg = Rg → Mirror.flip σ Q = Q →
      flipOutcome σ (loop build F U0 sup fuel it d A U Rg Q t r) = loop build F U0 sup fuel it d A U Rg Q t r := by
  induction fuel with
  | zero =>
    intro it d A U Rg Q t r _ hd _ _ hQ
    rw [loop, flipOutcome, hd, hQ]
  | succ fuel ih =>
    intro it d A U Rg Q t r hA hd hU hR hQ
    rw [loop]
    rcases h : solveEquations A Rg U sup with _ | ⟨u, Q1⟩
    · rfl
    · obtain ⟨hu, hQ1⟩ := solve_fixed hσ hA hR hU h
      simp only
      have e1 : Mirror.flip σ (fun i => F i - Q1 i) = fun i => F i - Q1 i := by
        funext i
        have a := congrFun hF i
        have b := congrFun hQ1 i
        unfold Mirror.flip at a b ⊢
        rw [mul_sub, a, b]
      have e2 : Mirror.flip σ (fun i => d i + u i) = fun i => d i + u i := by
        funext i
        have a := congrFun hd i
        have b := congrFun hu i
        unfold Mirror.flip at a b ⊢
        rw [mul_add, a, b]
      rcases hs : build .secant (fun i => d i + u i) with _ | Ks
      · rfl
      · have hKs := hb _ _ _ hs
        have e3 : Mirror.flip σ (fun i => F i - Q1 i - (Ks *ᵥ (fun i => d i + u i)) i)
            = fun i => F i - Q1 i - (Ks *ᵥ (fun i => d i + u i)) i := by
          funext i
          have a := congrFun e1 i
          have b := congrFun (mulVec_fixed Ks hKs e2) i
          unfold Mirror.flip at a b ⊢
          rw [mul_sub, a, b]
        simp only
        split_ifs
        · rcases h' : solveEquations Ks F U0 sup with _ | ⟨u', Q'⟩
          · rfl
          · simp only [flipOutcome, e2, (solve_fixed hσ hKs hF hU0 h').2]
        · rfl
        · rcases ht : build .tangent (fun i => d i + u i) with _ | Kt
          · rfl
          · exact ih _ _ _ _ _ _ _ _ (hb _ _ _ ht) e2 (by funext i; simp [Mirror.flip]) e3 hQ1

theorem winkler_fixed {σ : ι → K} (hσ : Signs σ) {build : Kind → (ι → K) → Option (Matrix ι ι K)}
    (hb : ∀ kind u A, build kind u = some A → Uncoupled σ A) {F U0 : ι → K} (hF : Mirror.flip σ F = F) (hU0 : Mirror.flip σ U0 = U0)
    (fix : ι → Bool) (m : ℕ) : flipOutcome σ (winkler build F U0 fix m) = winkler build F U0 fix m := by
  unfold winkler
  rcases h : build .initial 0 with _ | A
  · rfl
  · exact loop_fixed hσ hb hF hU0 _ _ _ _ _ _ _ _ _ _ (hb _ _ _ h) (by funext i; simp [Mirror.flip]) hU0 hF
      (by funext i; simp [Mirror.flip])

end loop

theorem build_mirror (ty : ElementType) {n : ℕ} (el : Fin n → Elem ℝ) (sp : Springs ℝ n) (kind : Kind) (u : Fin (3 * n + 3) → ℝ)
    (A : Matrix (Fin (3 * n + 3)) (Fin (3 * n + 3)) ℝ) (hA : buildStiffness ty el sp kind u = some A) : Uncoupled mirror A := by
  obtain ⟨s, h, m, q, -, -, -, -, rfl⟩ := OpenPile.Props.SoilStiffness.build_parts ty el sp kind u A hA
  exact stiffness_uncoupled ty el s h m q

/-! ### from the calls to the tables -/

/-- The call loads or moves the pile along its axis only; supports of any kind. -/
def OnlyAlong : Call ℝ → Prop
  | .pointload _ Py _ Mx => (Py = none ∨ Py = some 0) ∧ (Mx = none ∨ Mx = some 0)
  | .pointdisplacement _ Ty _ Rx => (Ty = none ∨ Ty = some 0) ∧ (Rx = none ∨ Rx = some 0)
  | .support _ _ _ _ => True

/-- The call loads or moves the pile across its axis only; supports of any kind. -/
def OnlyAcross : Call ℝ → Prop
  | .pointload _ _ Pz _ => Pz = none ∨ Pz = some 0
  | .pointdisplacement _ _ Tz _ => Tz = none ∨ Tz = some 0
  | .support _ _ _ _ => True

theorem map_self {α : Type} {f : α → α} {l : List α} (h : ∀ a ∈ l, f a = a) : l.map f = l := by
  conv_rhs => rw [← List.map_id l]
  exact List.map_congr_left h

theorem along_self {h : List (Call ℝ)} (hac : ∀ c ∈ h, OnlyAlong c) : h.map mirrorCall = h := by
  refine map_self fun c hc => ?_
  have := hac c hc
  cases c <;> simp only [OnlyAlong, mirrorCall] at this ⊢
  · rcases this with ⟨rfl | rfl, rfl | rfl⟩ <;> simp
  · rcases this with ⟨rfl | rfl, rfl | rfl⟩ <;> simp

theorem across_self {h : List (Call ℝ)} (hac : ∀ c ∈ h, OnlyAcross c) : h.map pullCall = h := by
  refine map_self fun c hc => ?_
  have := hac c hc
  cases c <;> simp only [OnlyAcross, pullCall] at this ⊢
  · rcases this with rfl | rfl <;> simp
  · rcases this with rfl | rfl <;> simp

theorem rows_fixed {l : List (ℝ × ℝ × ℝ × ℝ)} (hl : l = l.map (fun r => (r.1, r.2.1, -r.2.2.1, -r.2.2.2))) :
    ∀ r ∈ l, r.2.2.1 = 0 ∧ r.2.2.2 = 0 := by
  intro r hr
  obtain ⟨i, hi, rfl⟩ := List.getElem_of_mem hr
  have := List.getElem_of_eq hl hi
  rw [List.getElem_map] at this
  have h1 := congrArg (fun q => q.2.2.1) this
  have h2 := congrArg (fun q => q.2.2.2) this
  simp only at h1 h2
  constructor <;> linarith

theorem rows_fixed' {l : List (ℝ × ℝ × ℝ × ℝ)} (hl : l = l.map (fun r => (r.1, -r.2.1, r.2.2.1, r.2.2.2))) :
    ∀ r ∈ l, r.2.1 = 0 := by
  intro r hr
  obtain ⟨i, hi, rfl⟩ := List.getElem_of_mem hr
  have := List.getElem_of_eq hl hi
  rw [List.getElem_map] at this
  have h1 := congrArg (fun q => q.2.1) this
  simp only at h1
  linarith

theorem reac_fixed {f : ℝ × List ℝ → ℝ × List ℝ} {l : List (ℝ × List ℝ)} (hl : l = l.map f) : ∀ r ∈ l, r = f r := by
  intro r hr
  obtain ⟨i, hi, rfl⟩ := List.getElem_of_mem hr
  have := List.getElem_of_eq hl hi
  rwa [List.getElem_map] at this

theorem axial_on {ty : ElementType} {p : Pile.Pile ℝ} {C : Coordinates ℝ} {w : Switches} {A : Arrays} {h : List (Call ℝ)}
    (hac : ∀ c ∈ h, OnlyAlong c) {t : SoilTables} (hsolve : solveSoilOn ty p C w A (run [] h) 100 = some (.numbers t)) :
    (∀ r ∈ t.disp, r.2.2.1 = 0 ∧ r.2.2.2 = 0) ∧ (∀ r ∈ t.forces, r.2.2.1 = 0 ∧ r.2.2.2 = 0) ∧
      ∀ r ∈ t.reactions, ∀ a b c, r.2 = [a, b, c] → b = 0 ∧ c = 0 := by
  obtain ⟨F, U, R, el, d, Q, tolSq, resSq, ⟨gF, hF, hF'⟩, ⟨gU, hU, hU'⟩, -, -, hw, ht, -⟩ := solveSoilOn_numbers (by norm_num) hsolve
  have hn : Numbers (run [] h) := run_numbers h (fun c hc => absurd hc (by simp))
  have hrun := run_mirror h ([] : List (Cond ℝ))
  rw [List.map_nil, along_self hac] at hrun
  have eF : Mirror.flip mirror F = F := by
    have := forces_mirror C.nodes hn
    rw [← hrun, hF] at this
    have hg : mirrorNodal gF = gF := (Except.ok.inj this).symm
    have := asVec_alt C.elements.length ((dofList gF).map (fun i : ℤ => (i : ℝ)))
    rw [← cast_alt, ← dofList_mirror, hg, hF', Option.map_some, Option.some.injEq] at this
    exact this.symm
  have eU : Mirror.flip mirror U = U := by
    have := disp_mirror C.nodes hn
    rw [← hrun, hU] at this
    have hg : mirrorNodal gU = gU := (Except.ok.inj this).symm
    have := asVec_alt C.elements.length (dofList gU)
    rw [← dofList_mirror, hg, hU', Option.map_some, Option.some.injEq] at this
    exact this.symm
  have hfix := winkler_fixed mirror_signs (build_mirror ty el (springsOf w A C.elements.length)) eF eU R 100
  rw [hw] at hfix
  simp only [flipOutcome, Outcome.converged.injEq] at hfix
  have htab := tables_mirror ty C.nodes el d Q
  rw [hfix.1, hfix.2.1, ht, Option.map_some, Option.some.injEq] at htab
  refine ⟨rows_fixed (congrArg Tables.disp htab), rows_fixed (congrArg Tables.forces htab), ?_⟩
  intro r hr a b c he
  obtain ⟨x, l⟩ := r
  subst he
  have := congrArg Prod.snd (reac_fixed (congrArg Tables.reactions htab) _ hr)
  simp only [List.cons.injEq, and_true, true_and] at this
  constructor <;> linarith

/-- **C71, axial loads alone.** In any soil, with any switches, supports and springs and whatever the number of iterations: if no call
loads or moves the pile across its axis, every deflection, rotation, shear force and bending moment of the result is exactly zero, and so
are the lateral reactions. -/
theorem C71_axial_only {ty : ElementType} {p : Pile.Pile ℝ} {sp : SoilProfile} {x2mesh : List ℝ} {coarseness : ℝ} {w : Switches}
    {table : List (ℝ × Pile.Section ℝ)} {env : Draws} {h : List (Call ℝ)} (hac : ∀ c ∈ h, OnlyAlong c) {t : SoilTables}
    (hsolve : solveSoil ty p sp x2mesh coarseness w table env (run [] h) = some (.numbers t)) :
    (∀ r ∈ t.disp, r.2.2.1 = 0 ∧ r.2.2.2 = 0) ∧ (∀ r ∈ t.forces, r.2.2.1 = 0 ∧ r.2.2.2 = 0) ∧
      ∀ r ∈ t.reactions, ∀ a b c, r.2 = [a, b, c] → b = 0 ∧ c = 0 := by
  unfold solveSoil at hsolve
  simp only [Option.bind_eq_bind, Option.bind_eq_some_iff] at hsolve
  obtain ⟨C, -, A, -, hsolve⟩ := hsolve
  exact axial_on hac hsolve

theorem lateral_on {ty : ElementType} {p : Pile.Pile ℝ} {C : Coordinates ℝ} {w : Switches} {A : Arrays} {h : List (Call ℝ)}
    (hac : ∀ c ∈ h, OnlyAcross c) {t : SoilTables} (hsolve : solveSoilOn ty p C w A (run [] h) 100 = some (.numbers t)) :
    (∀ r ∈ t.disp, r.2.1 = 0) ∧ (∀ r ∈ t.forces, r.2.1 = 0) ∧ ∀ r ∈ t.reactions, ∀ a b c, r.2 = [a, b, c] → a = 0 := by
  obtain ⟨F, U, R, el, d, Q, tolSq, resSq, ⟨gF, hF, hF'⟩, ⟨gU, hU, hU'⟩, -, -, hw, ht, -⟩ := solveSoilOn_numbers (by norm_num) hsolve
  have hn : Numbers (run [] h) := run_numbers h (fun c hc => absurd hc (by simp))
  have hrun := run_pull h ([] : List (Cond ℝ))
  rw [List.map_nil, across_self hac] at hrun
  have eF : Mirror.flip upside F = F := by
    have := forces_pull C.nodes hn
    rw [← hrun, hF] at this
    have hg : pullNodal gF = gF := (Except.ok.inj this).symm
    have := asVec_turn C.elements.length ((dofList gF).map (fun i : ℤ => (i : ℝ)))
    rw [← cast_turn, ← dofList_pull, hg, hF', Option.map_some, Option.some.injEq] at this
    exact this.symm
  have eU : Mirror.flip upside U = U := by
    have := disp_pull C.nodes hn
    rw [← hrun, hU] at this
    have hg : pullNodal gU = gU := (Except.ok.inj this).symm
    have := asVec_turn C.elements.length (dofList gU)
    rw [← dofList_pull, hg, hU', Option.map_some, Option.some.injEq] at this
    exact this.symm
  have hfix := winkler_fixed upside_signs (fun kind u B hB => uncoupled_upside (build_mirror ty el (springsOf w A C.elements.length) kind u B hB)) eF eU R 100
  rw [hw] at hfix
  simp only [flipOutcome, Outcome.converged.injEq] at hfix
  have htab := tables_pull ty C.nodes el d Q
  rw [hfix.1, hfix.2.1, ht, Option.map_some, Option.some.injEq] at htab
  refine ⟨rows_fixed' (congrArg Tables.disp htab), rows_fixed' (congrArg Tables.forces htab), ?_⟩
  intro r hr a b c he
  obtain ⟨x, l⟩ := r
  subst he
  have := congrArg Prod.snd (reac_fixed (congrArg Tables.reactions htab) _ hr)
  simp only [List.cons.injEq, and_true] at this
  linarith

/-- **C71, lateral loads alone.** Likewise: if no call loads or moves the pile along its axis, every settlement, normal force and axial
reaction is exactly zero, also where the soil resists pulling less than pushing. -/
theorem C71_lateral_only {ty : ElementType} {p : Pile.Pile ℝ} {sp : SoilProfile} {x2mesh : List ℝ} {coarseness : ℝ} {w : Switches}
    {table : List (ℝ × Pile.Section ℝ)} {env : Draws} {h : List (Call ℝ)} (hac : ∀ c ∈ h, OnlyAcross c) {t : SoilTables}
    (hsolve : solveSoil ty p sp x2mesh coarseness w table env (run [] h) = some (.numbers t)) :
    (∀ r ∈ t.disp, r.2.1 = 0) ∧ (∀ r ∈ t.forces, r.2.1 = 0) ∧ ∀ r ∈ t.reactions, ∀ a b c, r.2 = [a, b, c] → a = 0 := by
  unfold solveSoil at hsolve
  simp only [Option.bind_eq_bind, Option.bind_eq_some_iff] at hsolve
  obtain ⟨C, -, A, -, hsolve⟩ := hsolve
  exact lateral_on hac hsolve

/-! ### a case that meets the hypotheses -/

/-- A pile in a profile without soil models under a lateral load: the analysis ends with numbers and without settlements. -/
example (w : Switches) (hw : w.distributedMoment = true → w.distributedLateral = true) (table : List (ℝ × Pile.Section ℝ)) (env : Draws) :
    ∃ t, solveSoil .timoshenko NoModels.pileN NoModels.soilN [] 1 w table env
        (run [] [.pointload 1 (some 100) none none, .support (-10) (some true) (some true) (some true)]) = some (.numbers t) ∧
      ∀ r ∈ t.disp, r.2.1 = 0 := by
  obtain ⟨t, ht, -⟩ := NoModels.solvedN w hw table env
  have e : run [] [.pointload 1 (some 100) none none, .support (-10) (some true) (some true) (some true)] = NoModels.bcsN := by
    simp [run, BC.step, setPointload, setSupport, updateBc, Cond.isAt, NoModels.bcsN]
  rw [← e] at ht
  exact ⟨t, ht, (C71_lateral_only (by simp [OnlyAcross]) ht).1⟩

/-- A pile with lateral springs under a lateral load, held in part: the analysis ends with numbers and without settlements. -/
example : ∃ t, solveSoilOn .eulerBernoulli SoilTables.pileS SoilTables.meshS SoilTables.switchesS SoilTables.arraysS
      (run [] SoilSupport.callsT) 100 = some (.numbers t) ∧ (∀ r ∈ t.disp, r.2.1 = 0) ∧ ∀ r ∈ t.forces, r.2.1 = 0 := by
  obtain ⟨t, ht, -⟩ := SoilSupport.solvedT
  have := lateral_on (by simp [SoilSupport.callsT, OnlyAcross]) ht
  exact ⟨t, ht, this.1, this.2.1⟩

/-- A pile with shaft friction that is lifted by 1 m at its head: the analysis ends with numbers and without deflections. -/
example : ∃ t, solveSoilOn .eulerBernoulli Session.pileW Session.coordsW Session.switchesW (Session.arraysW (fun _ _ => 100))
      (run [] (Session.nodesW.map (fun e => .support e (some true) (some true) (some true)) ++
        [.pointdisplacement 0 none (some 1) none])) 100 = some (.numbers t) ∧
      (∀ r ∈ t.disp, r.2.2.1 = 0 ∧ r.2.2.2 = 0) ∧ ∀ r ∈ t.forces, r.2.2.1 = 0 ∧ r.2.2.2 = 0 := by
  obtain ⟨t, ht, -⟩ := Session.solveW (fun _ _ => 100) (fun _ _ _ => by norm_num)
  have e : run [] (Session.nodesW.map (fun e => .support e (some true) (some true) (some true)) ++
      [.pointdisplacement 0 none (some 1) none]) = Session.bcsW := by
    simp [run, BC.step, setPointdisplacement, setSupport, updateBc, Session.nodesW, Session.bcsW, Session.held]
  rw [← e] at ht
  have := axial_on (by simp [Session.nodesW, OnlyAlong]) ht
  exact ⟨t, ht, this.1, this.2.1⟩

end OpenPile.Props.PureLoads

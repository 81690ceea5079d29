/-
Property C81: a uniform pile that is fixed at its tip and loaded at its head moves as beam theory says.
-/
import Verif.Props.Reported

namespace OpenPile.Props.Cantilever
open OpenPile.Kernel OpenPile.Winkler OpenPile.Spec.Kernel OpenPile.Props.Beam OpenPile.Props.Element
  OpenPile.Props.Solve Matrix

/-! ### beam theory -/

section spec
variable {K : Type} [Field K]

/-- Axial displacement at depth `x` of a bar of length `ℓ` fixed at its lower end under a force `P` at its upper end. -/
def barDisp (EA P ℓ x : K) : K := P * (ℓ - x) / EA

/-- Lateral displacement at depth `x` of a beam of length `ℓ` fixed at its lower end under a force `H` and a moment `M` at
its upper end; `c` is the shear strain per unit of shear force. -/
def beamDisp (EI c H M ℓ x : K) : K :=
  (H * (x ^ 3 - 3 * ℓ ^ 2 * x + 2 * ℓ ^ 3) / 6 - M * (ℓ - x) ^ 2 / 2) / EI + c * H * (ℓ - x)

/-- Rotation of the section at depth `x`. -/
def beamRot (EI H M ℓ x : K) : K := (M * (ℓ - x) - H * (ℓ ^ 2 - x ^ 2) / 2) / EI

end spec

variable {K : Type} [Field K] {n : ℕ}

/-- The displacements of beam theory at the nodes. -/
def exact (EA EI c P H M : K) (x : Fin (n + 1) → K) (r : Fin (3 * n + 3)) : K :=
  let xr := x ⟨r.1 / 3, by omega⟩
  if r.1 % 3 = 0 then barDisp EA P (x (Fin.last n)) xr
  else if r.1 % 3 = 1 then beamDisp EI c H M (x (Fin.last n)) xr
  else beamRot EI H M (x (Fin.last n)) xr

theorem exact_dof (EA EI c P H M : K) (x : Fin (n + 1) → K) (j : Fin (n + 1)) :
    exact EA EI c P H M x (dof j 0) = barDisp EA P (x (Fin.last n)) (x j) ∧
    exact EA EI c P H M x (dof j 1) = beamDisp EI c H M (x (Fin.last n)) (x j) ∧
    exact EA EI c P H M x (dof j 2) = beamRot EI H M (x (Fin.last n)) (x j) := by
  have e : ∀ d : Fin 3, (⟨(dof j d).1 / 3, by omega⟩ : Fin (n + 1)) = j ∧ (dof j d).1 % 3 = d.1 := by
    intro d
    have hd := d.2
    constructor
    · apply Fin.ext
      show (3 * j.1 + d.1) / 3 = j.1
      omega
    · show (3 * j.1 + d.1) % 3 = d.1
      omega
  unfold exact
  refine ⟨?_, ?_, ?_⟩
  · simp only [(e 0).1, (e 0).2]
    simp
  · simp only [(e 1).1, (e 1).2]
    simp
  · simp only [(e 2).1, (e 2).2]
    simp

/-- Nodal forces of one element under these displacements. -/
theorem element_exact (ty : ElementType) (e : Elem K) (hL : e.L ≠ 0) (hE : e.E ≠ 0) (hA : e.A ≠ 0) (hI : e.I ≠ 0)
    (h6 : (6 : K) ≠ 0) (hp : 1 + phi ty e ≠ 0) (c P H M ℓ x : K) (hc : phi ty e = 12 * (e.E * e.I) * c / e.L ^ 2) (u : Fin 6 → K)
    (h0 : u 0 = barDisp (e.E * e.A) P ℓ x) (h1 : u 1 = beamDisp (e.E * e.I) c H M ℓ x)
    (h2 : u 2 = beamRot (e.E * e.I) H M ℓ x) (h3 : u 3 = barDisp (e.E * e.A) P ℓ (x + e.L))
    (h4 : u 4 = beamDisp (e.E * e.I) c H M ℓ (x + e.L)) (h5 : u 5 = beamRot (e.E * e.I) H M ℓ (x + e.L)) :
    mechMatrix ty e *ᵥ u = ![P, H, M - H * x, -P, -H, -(M - H * (x + e.L))] := by
  have h2' : (2 : K) ≠ 0 := by
    intro h
    apply h6
    rw [show (6 : K) = 2 * 3 by norm_num, h, zero_mul]
  unfold mechMatrix
  rw [beam_mulVec, h0, h1, h2, h3, h4, h5]
  unfold barDisp beamDisp beamRot
  have h12 : (12 : K) ≠ 0 := by
    rw [show (12 : K) = 6 * 2 by norm_num]
    exact mul_ne_zero h6 h2'
  have hc' : c = phi ty e * e.L ^ 2 / (12 * (e.E * e.I)) := by
    rw [hc]
    field_simp
  rw [hc']
  generalize phi ty e = p at hp
  funext i
  fin_cases i <;> simp <;> field_simp <;> ring

section beam
variable [LinearOrder K] [IsStrictOrderedRing K]
open OpenPile.Props.Refine

/-- The elements of a uniform pile differ in their length only. -/
def Uniform (el : Fin n → Elem K) (e0 : Elem K) : Prop := ∀ i, el i = { e0 with L := (el i).L }

/-- Nodal forces of the whole pile under the displacements of beam theory. -/
theorem pile_exact (ty : ElementType) (el : Fin n → Elem K) (e0 : Elem K) (hu : Uniform el e0)
    (hr : ∀ i, Regular ty (el i)) (P H M : K) (j : Fin (n + 1)) :
    let x := nodeDepth (fun i => (el i).L)
    let r := beamStiffness ty n el *ᵥ exact (e0.E * e0.A) (e0.E * e0.I) (compliance ty e0) P H M x
    (r (dof j 0), r (dof j 1), r (dof j 2)) =
      (if j.1 < n then (P, H, M - H * x j) else 0) + (if 0 < j.1 then (-P, -H, -(M - H * x j)) else 0) := by
  intro x r
  have hel : ∀ i : Fin n, mechMatrix ty (el i) *ᵥ
      stacked (exact (e0.E * e0.A) (e0.E * e0.I) (compliance ty e0) P H M x) i
      = ![P, H, M - H * x i.castSucc, -P, -H, -(M - H * x i.succ)] := by
    intro i
    obtain ⟨hL, hE, hA, hI, hp⟩ := hr i
    have e1 : (el i).E = e0.E := by rw [hu i]
    have e2 : (el i).A = e0.A := by rw [hu i]
    have e3 : (el i).I = e0.I := by rw [hu i]
    have e4 : compliance ty (el i) = compliance ty e0 := by
      rw [hu i]
      rfl
    have hx : x i.succ = x i.castSucc + (el i).L := nodeDepth_succ _ i
    obtain ⟨s0, s1, s2, s3, s4, s5⟩ :=
      stacked_top (exact (e0.E * e0.A) (e0.E * e0.I) (compliance ty e0) P H M x) i
    obtain ⟨t0, t1, t2⟩ := exact_dof (e0.E * e0.A) (e0.E * e0.I) (compliance ty e0) P H M x i.castSucc
    obtain ⟨b0, b1, b2⟩ := exact_dof (e0.E * e0.A) (e0.E * e0.I) (compliance ty e0) P H M x i.succ
    rw [hx] at b0 b1 b2
    have hc : phi ty (el i) = 12 * ((el i).E * (el i).I) * compliance ty e0 / (el i).L ^ 2 := by
      rw [← e4, compliance_phi ty (el i) ⟨hL, hE, hA, hI, hp⟩]
      field_simp
    have := element_exact ty (el i) hL hE hA hI (by norm_num) hp (compliance ty e0) P H M (x (Fin.last n)) (x i.castSucc) hc
      (stacked (exact (e0.E * e0.A) (e0.E * e0.I) (compliance ty e0) P H M x) i)
    rw [e1, e2, e3] at this
    rw [this (s0.trans t0) (s1.trans t1) (s2.trans t2) (s3.trans b0) (s4.trans b1) (s5.trans b2), hx]
  have hr' : ∀ d : Fin 3, r (dof j d) = _ := fun d =>
    assemble_mulVec_dof (fun i => mechMatrix ty (el i)) (exact (e0.E * e0.A) (e0.E * e0.I) (compliance ty e0) P H M x) j d
  rw [hr' 0, hr' 1, hr' 2]
  have ht : ∀ h : j.1 < n, (⟨j.1, h⟩ : Fin n).castSucc = j := fun h => rfl
  have hb : ∀ h : 0 < j.1, (⟨j.1 - 1, by omega⟩ : Fin n).succ = j := by
    intro h
    apply Fin.ext
    show j.1 - 1 + 1 = j.1
    omega
  by_cases h1 : j.1 < n <;> by_cases h2 : 0 < j.1
  · simp only [dif_pos h1, dif_pos h2, if_pos h1, if_pos h2, hel, ht h1, hb h2]
    simp [topDof, botDof]
  · simp only [dif_pos h1, dif_neg h2, if_pos h1, if_neg h2, hel, ht h1]
    simp [topDof]
  · simp only [dif_neg h1, dif_pos h2, if_neg h1, if_pos h2, hel, hb h2]
    simp [botDof]
  · simp only [dif_neg h1, dif_neg h2, if_neg h1, if_neg h2]
    simp

/-- **C81, in the solver.** A uniform pile, however it is divided into elements, that is held at its last node alone and
loaded at its first node alone, moves as beam theory says. -/
theorem C81_solution (ty : ElementType) (hn : 1 ≤ n) (el : Fin n → Elem K) (e0 : Elem K) (hu : Uniform el e0)
    (hr : ∀ i, Regular ty (el i)) (F U : Fin (3 * n + 3) → K) (restr : Fin (3 * n + 3) → Bool)
    (hlast : ∀ d, restr (dof (Fin.last n) d) = true ∧ U (dof (Fin.last n) d) = 0)
    (hfree : ∀ j : Fin (n + 1), j.1 < n → ∀ d, restr (dof j d) = false)
    (hF : ∀ j : Fin (n + 1), 0 < j.1 → ∀ d, F (dof j d) = 0) (u Q : Fin (3 * n + 3) → K)
    (h : solveEquations (beamStiffness ty n el) F U restr = some (u, Q)) :
    let x := nodeDepth (fun i => (el i).L)
    let ℓ := x (Fin.last n)
    let P := F (dof 0 0)
    let H := F (dof 0 1)
    let M := F (dof 0 2)
    (∀ j, u (dof j 0) = barDisp (e0.E * e0.A) P ℓ (x j) ∧
      u (dof j 1) = beamDisp (e0.E * e0.I) (compliance ty e0) H M ℓ (x j) ∧
      u (dof j 2) = beamRot (e0.E * e0.I) H M ℓ (x j)) ∧
    (∀ j : Fin (n + 1), j.1 < n → ∀ d, Q (dof j d) = 0) ∧ Q (dof (Fin.last n) 0) = -P ∧ Q (dof (Fin.last n) 1) = -H ∧
    Q (dof (Fin.last n) 2) = H * ℓ - M := by
  intro x ℓ P H M
  obtain ⟨c1, c2, c3, c4⟩ := C15_solution _ F U restr u Q h
  have hx0 : x 0 = 0 := nodeDepth_zero _
  have hex : exact (e0.E * e0.A) (e0.E * e0.I) (compliance ty e0) P H M x = u := by
    apply c4
    · intro i hi
      obtain ⟨j, d, rfl⟩ := dof_surjective i
      have hj : j.1 < n := by
        by_contra hj
        have : j = Fin.last n := by
          apply Fin.ext
          have := j.2
          show j.1 = n
          omega
        rw [this, (hlast d).1] at hi
        cases hi
      have hp := pile_exact ty el e0 hu hr P H M j
      dsimp only at hp
      rw [if_pos hj] at hp
      by_cases h0 : 0 < j.1
      · rw [hF j h0]
        rw [if_pos h0] at hp
        simp only [Prod.mk_add_mk, add_neg_cancel, Prod.mk.injEq] at hp
        obtain ⟨p0, p1, p2⟩ := hp
        have hd : d = 0 ∨ d = 1 ∨ d = 2 := by fin_cases d <;> simp
        rcases hd with rfl | rfl | rfl
        · exact p0
        · exact p1
        · exact p2
      · have hj0 : j = 0 := Fin.ext (by show j.1 = 0; omega)
        subst hj0
        rw [if_neg h0, add_zero] at hp
        simp only [Prod.mk.injEq] at hp
        obtain ⟨p0, p1, p2⟩ := hp
        have hd : d = 0 ∨ d = 1 ∨ d = 2 := by fin_cases d <;> simp
        rcases hd with rfl | rfl | rfl
        · exact p0
        · exact p1
        · refine p2.trans ?_
          show M - H * x 0 = M
          rw [hx0]
          ring
    · intro i hi
      obtain ⟨j, d, rfl⟩ := dof_surjective i
      have hj : j = Fin.last n := by
        by_contra hj
        have : j.1 < n := by
          have h1 := j.2
          have h2 : j.1 ≠ n := fun h => hj (Fin.ext h)
          omega
        rw [hfree j this d] at hi
        cases hi
      subst hj
      rw [(hlast d).2]
      obtain ⟨t0, t1, t2⟩ := exact_dof (e0.E * e0.A) (e0.E * e0.I) (compliance ty e0) P H M x (Fin.last n)
      have hd : d = 0 ∨ d = 1 ∨ d = 2 := by fin_cases d <;> simp
      rcases hd with rfl | rfl | rfl
      · rw [t0]
        simp [barDisp]
      · rw [t1]
        unfold beamDisp
        ring
      · rw [t2]
        simp [beamRot]
  refine ⟨fun j => ?_, fun j hj d => (c1 _ (hfree j hj d)).2, ?_⟩
  · rw [← hex]
    exact exact_dof _ _ _ P H M x j
  · have hp := pile_exact ty el e0 hu hr P H M (Fin.last n)
    dsimp only at hp
    rw [if_neg (by simp), if_pos (by show 0 < n; omega), zero_add] at hp
    simp only [Prod.mk.injEq] at hp
    obtain ⟨p0, p1, p2⟩ := hp
    change (beamStiffness ty n el *ᵥ exact (e0.E * e0.A) (e0.E * e0.I) (compliance ty e0) P H M x) _ = _ at p0 p1 p2
    rw [hex] at p0 p1 p2
    have q0 := c3 (dof (Fin.last n) 0)
    have q1 := c3 (dof (Fin.last n) 1)
    have q2 := c3 (dof (Fin.last n) 2)
    rw [p0, hF _ (by show 0 < n; omega), zero_add] at q0
    rw [p1, hF _ (by show 0 < n; omega), zero_add] at q1
    rw [p2, hF _ (by show 0 < n; omega), zero_add] at q2
    refine ⟨q0, q1, q2.trans ?_⟩
    show -(M - H * x (Fin.last n)) = H * x (Fin.last n) - M
    ring

end beam

section tables
open OpenPile.BC OpenPile.Mesh OpenPile.Analysis OpenPile.Result OpenPile.Props.Analysis OpenPile.Props.Reported
  OpenPile.Spec.BC
open OpenPile.Props.Refine (Regular compliance)
variable [LinearOrder K] [IsStrictOrderedRing K] [FloorRing K]

/-- Area of a ring. -/
def ringArea (pi D t : K) : K := pi / 4 * (D ^ 2 - (D - 2 * t) ^ 2)

/-- Second moment of area of a ring. -/
def ringInertia (pi D t : K) : K := pi / 64 * (D ^ 4 - (D - 2 * t) ^ 4)

/-- Shear strain per unit of shear force as the code has it: none in Euler-Bernoulli elements, the shear coefficient
*times* `1 / (G A)` in Timoshenko elements. -/
def codeFlex (pi : K) (ty : ElementType) (E nu D t : K) : K :=
  match ty with
  | .eulerBernoulli => 0
  | .timoshenko => hutchinson (D / 2) ((D - 2 * t) / 2) nu * (2 * (1 + nu)) / (E * ringArea pi D t)

/-- Shear strain per unit of shear force in Timoshenko's theory: `1 / (k G A)`. -/
def trueFlex (pi E nu D t : K) : K :=
  2 * (1 + nu) / (hutchinson (D / 2) ((D - 2 * t) / 2) nu * (E * ringArea pi D t))

/-- `set_pointload` at the head and `set_support` at the tip. -/
def calls (top tip : K) (P H M : ℤ) : List (Call K) :=
  [.pointload top (some (H : K)) (some (P : K)) (some (M : K)), .support tip (some true) (some true) (some true)]

theorem run_calls (top tip : K) (P H M : ℤ) : run [] (calls top tip P H M) =
    [⟨.force, top, some (.num (M : K)), some (.num (H : K)), some (.num (P : K))⟩,
     ⟨.fixation, tip, some (.flag true), some (.flag true), some (.flag true)⟩] := by
  simp [calls, run, step, setPointload, setSupport, updateBc, Cond.isAt]

omit [FloorRing K] in
theorem idx_head {n : ℕ} (z : Fin (n + 1) → K) : nodeIdx (List.ofFn z) (z 0) = some 0 := by
  unfold nodeIdx
  rw [List.findIdx?_eq_some_iff_getElem]
  refine ⟨by simp, ?_, fun j hj => absurd hj (Nat.not_lt_zero j)⟩
  rw [List.getElem_ofFn]
  simp only [isClose, decide_eq_true_eq]
  show |z 0 - z 0| ≤ _
  rw [sub_self, abs_zero]
  positivity

omit [FloorRing K] in
theorem idx_tip {n : ℕ} (z : Fin (n + 1) → K) (h : ∀ j : Fin (n + 1), j.1 < n → ¬ Near (z j) (z (Fin.last n))) :
    nodeIdx (List.ofFn z) (z (Fin.last n)) = some n := by
  unfold nodeIdx
  rw [List.findIdx?_eq_some_iff_getElem]
  refine ⟨by simp, ?_, fun j hj => ?_⟩
  · rw [List.getElem_ofFn]
    simp only [isClose, decide_eq_true_eq]
    show |z (Fin.last n) - z (Fin.last n)| ≤ _
    rw [sub_self, abs_zero]
    positivity
  · rw [List.getElem_ofFn]
    simp only [isClose, decide_eq_true_eq]
    have := h ⟨j, by omega⟩ hj
    unfold Near at this
    rw [div_eq_inv_mul |z (Fin.last n)|, ← one_div (100000 : K)] at this
    exact this

theorem left_calls {n : ℕ} (z : Fin (n + 1) → K) (P H M : ℤ)
    (h : ∀ j : Fin (n + 1), j.1 < n → ¬ Near (z j) (z (Fin.last n))) (j : Fin (n + 1)) :
    let bcs := run [] (calls (z 0) (z (Fin.last n)) P H M)
    let nodes := List.ofFn z
    (left storeInt 0 nodes bcs .force .z j.1 = if j.1 = 0 then P else 0) ∧
    (left storeInt 0 nodes bcs .force .y j.1 = if j.1 = 0 then H else 0) ∧
    (left storeInt 0 nodes bcs .force .x j.1 = if j.1 = 0 then M else 0) ∧
    ∀ a, left storeFloat 0 nodes bcs .displacement a j.1 = 0 ∧
      left storeBool false nodes bcs .fixation a j.1 = decide (j.1 = n) := by
  have hst : ∀ q : ℤ, storeInt (.num (q : K)) = q := by
    intro q
    simp [storeInt]
  intro bcs nodes
  simp only [bcs, nodes, run_calls]
  unfold left
  simp only [List.map_cons, List.map_nil, writeTo, idx_head, idx_tip z h]
  refine ⟨?_, ?_, ?_, ?_⟩
  · by_cases h0 : j.1 = 0
    · by_cases hP : P = 0 <;> simp [h0, hP, lastWrite, Cond.get, hst, Option.filter_some, Val.truthy]
    · have h1 : ¬ 0 = j.1 := fun h => h0 h.symm
      simp [h0, h1, lastWrite]
  · by_cases h0 : j.1 = 0
    · by_cases hP : H = 0 <;> simp [h0, hP, lastWrite, Cond.get, hst, Option.filter_some, Val.truthy]
    · have h1 : ¬ 0 = j.1 := fun h => h0 h.symm
      simp [h0, h1, lastWrite]
  · by_cases h0 : j.1 = 0
    · by_cases hP : M = 0 <;> simp [h0, hP, lastWrite, Cond.get, hst, Option.filter_some, Val.truthy]
    · have h1 : ¬ 0 = j.1 := fun h => h0 h.symm
      simp [h0, h1, lastWrite]
  · intro a
    refine ⟨?_, ?_⟩
    · simp [lastWrite]
    · by_cases h0 : n = j.1
      · cases a <;> simp [lastWrite, Cond.get, Val.truthy, storeBool, h0, Option.filter_some]
      · cases a <;> simp [lastWrite, Cond.get, Val.truthy, storeBool, h0, Ne.symm h0]

/-- What `compute` gives for the cantilever of beam theory: displacements and reactions. -/
def Theory (EA EI c : K) (top tip : K) (nodes : List K) (P H M : ℤ) (T : Tables K) : Prop :=
  T.disp = nodes.map (fun e => (e, barDisp EA (P : K) (top - tip) (top - e),
    beamDisp EI c (H : K) (M : K) (top - tip) (top - e), beamRot EI (H : K) (M : K) (top - tip) (top - e))) ∧
  T.reactions = if P = 0 ∧ H = 0 ∧ M = 0 then [] else [(tip, [-(P : K), -(H : K),
    if |(H : K) * (top - tip) - M| < 1 / 1000 then 0 else (H : K) * (top - tip) - M])]

omit [FloorRing K] in
theorem mask_int (a : ℤ) : maskSmall (-(a : K)) = -(a : K) ∧ (1 / 1000 < |(-(a : K))| ↔ a ≠ 0) := by
  have key : a ≠ 0 → (1 : K) ≤ |(-(a : K))| := by
    intro ha
    rw [abs_neg]
    have : (1 : ℤ) ≤ |a| := Int.one_le_abs ha
    exact_mod_cast this
  refine ⟨?_, ?_⟩
  · unfold maskSmall
    by_cases ha : a = 0
    · subst ha
      simp
    · rw [if_neg]
      have := key ha
      rw [not_lt]
      refine le_trans ?_ this
      norm_num
  · constructor
    · rintro h rfl
      norm_num at h
    · intro ha
      refine lt_of_lt_of_le ?_ (key ha)
      norm_num

omit [FloorRing K] in
theorem reactions_exact {n : ℕ} (z : Fin (n + 1) → K) (tip : K) (hl : z (Fin.last n) = tip) (Q : Fin (3 * n + 3) → K)
    (P H M : ℤ) (ℓ : K) (c2 : ∀ j : Fin (n + 1), j.1 < n → ∀ d, Q (dof j d) = 0)
    (c3 : Q (dof (Fin.last n) 0) = -(P : K)) (c4 : Q (dof (Fin.last n) 1) = -(H : K))
    (c5 : Q (dof (Fin.last n) 2) = (H : K) * ℓ - M) :
    (List.ofFn (fun j => (z j, shown Q j))).filter (fun r => r.2.any (fun q => decide (1 / 1000 < |q|)))
      = if P = 0 ∧ H = 0 ∧ M = 0 then [] else [(tip, [-(P : K), -(H : K),
        if |(H : K) * ℓ - M| < 1 / 1000 then 0 else (H : K) * ℓ - M])] := by
  have hz : ∀ j : Fin n, shown Q j.castSucc = [0, 0, 0] := by
    intro j
    unfold shown
    rw [c2 j.castSucc j.2, c2 j.castSucc j.2, c2 j.castSucc j.2]
    simp [maskSmall]
  have hlast : shown Q (Fin.last n) = [-(P : K), -(H : K),
      if |(H : K) * ℓ - M| < 1 / 1000 then 0 else (H : K) * ℓ - M] := by
    unfold shown
    rw [c3, c4, c5, (mask_int P).1, (mask_int H).1]
    rfl
  rw [List.ofFn_succ', List.concat_eq_append, List.filter_append]
  have h1 : (List.ofFn (fun j : Fin n => (z j.castSucc, shown Q j.castSucc))).filter
      (fun r => r.2.any (fun q => decide (1 / 1000 < |q|))) = [] := by
    rw [List.filter_eq_nil_iff]
    intro r hr
    obtain ⟨j, rfl⟩ := List.mem_ofFn.1 hr
    dsimp only
    rw [hz]
    simp
  rw [h1, List.nil_append, hlast, hl, List.filter_singleton]
  by_cases h0 : P = 0 ∧ H = 0 ∧ M = 0
  · rw [if_pos h0]
    obtain ⟨rfl, rfl, rfl⟩ := h0
    have hn : ¬ ((1000 : K) < 0) := by norm_num
    simp [hn]
  · rw [if_neg h0]
    have hany : ([-(P : K), -(H : K), if |(H : K) * ℓ - M| < 1 / 1000 then 0 else (H : K) * ℓ - M].any
        (fun q => decide (1 / 1000 < |q|))) = true := by
      rw [List.any_eq_true]
      by_cases hP : P = 0
      · by_cases hH : H = 0
        · have hM : M ≠ 0 := fun hM => h0 ⟨hP, hH, hM⟩
          refine ⟨-(M : K), ?_, decide_eq_true ((mask_int M).2.2 hM)⟩
          subst hH
          rw [Int.cast_zero, zero_mul, zero_sub, if_neg (not_lt.2 ((mask_int M).2.2 hM).le)]
          simp
        · exact ⟨-(H : K), by simp, decide_eq_true ((mask_int H).2.2 hH)⟩
      · exact ⟨-(P : K), by simp, decide_eq_true ((mask_int P).2.2 hP)⟩
    dsimp only
    rw [hany]
    rfl

/-- **C81, from the tables.** A pile of one diameter and wall thickness, in any number of sections and on any mesh, loaded at
its head and fixed at its tip: the analysis succeeds, the listed displacements are those of beam theory with the bending and
axial stiffness of the ring, and the only reactions are those that balance the loads at the tip.  Missing: in Timoshenko
elements the shear flexibility is the one of the code (C17). -/
theorem C81_tables_partial (pi : K) (hpi : 0 < pi) (ty : ElementType) (uw E nu : K) (p : Pile.Pile K)
    (hm : Pile.mkMaterial uw E nu = some p.material) (hnu : ty = .timoshenko → -(3 / 4) ≤ nu) (top tip : K)
    (hp : Stack p top tip) (hb : ∀ s ∈ p.sections, Spec.Pile.Built s ∧ s.thickness < s.diameter) (D t : K)
    (hu : ∀ s ∈ p.sections, s.diameter = D ∧ s.thickness = t) (C : Coordinates K) (h : MeshOn p top tip C)
    (htip : ∀ x ∈ C.nodes, Near x tip → x = tip) (P H M : ℤ) :
    ∃ T, solveOn pi ty p C (run [] (calls top tip P H M)) = some T ∧
      Theory (E * ringArea pi D t) (E * ringInertia pi D t) (codeFlex pi ty E nu D t) top tip C.nodes P H M T := by
  have hv : ∀ cls, validateBc (run [] (calls top tip P H M)) cls = .ok () := fun cls =>
    Props.BC.C13_histories_never_raise _ cls
  obtain ⟨z, el, F, U, R, n1, hanti, hmem, h0, hl, hel, hF, hU, hR, hs⟩ :=
    solveOn_eq pi ty hp h (run [] (calls top tip P H M)) hv
  have hzz : C.nodes = List.ofFn z := by
    have hperm : C.nodes.Perm (List.ofFn z) := by
      rw [List.perm_ext_iff_of_nodup (h.dec.imp fun h => h.ne') (List.nodup_ofFn.2 hanti.injective)]
      intro x
      rw [hmem, List.mem_ofFn']
    refine hperm.eq_of_pairwise (le := (· > ·)) ?_ h.dec ?_
    · intro a b _ _ hab hba
      exact absurd hab (not_lt.2 (le_of_lt hba))
    · rw [List.pairwise_ofFn]
      intro i j hij
      exact hanti hij
  generalize C.elements.length = n at *
  have hgood : GoodElems ty el := by
    intro i
    obtain ⟨s, hsf, e⟩ := hel i
    have hmem : s ∈ p.sections.filter (fun s => decide (z i.castSucc ≤ s.top ∧ z i.succ ≥ s.bottom)) := by
      rw [hsf]; simp
    obtain ⟨⟨t, b, d, th, hbs⟩, ht⟩ := hb s (List.mem_filter.1 hmem).1
    have hg := goodElem_of_built pi hpi uw E nu p.material hm t b d th s hbs ht |z i.castSucc - z i.succ|
      (abs_pos.2 (sub_ne_zero.2 (hanti Fin.castSucc_lt_succ).ne'))
    rw [← e] at hg
    refine ⟨hg, fun hty => ?_⟩
    have hm' : p.material.nu = nu := by
      unfold Pile.mkMaterial at hm
      split_ifs at hm
      rw [← Option.some.inj hm]
    rw [e, show (elemOf pi p.material s |z i.castSucc - z i.succ|).nu = nu from hm']
    exact hnu hty
  -- lengths and depths
  have hdep : ∀ j, nodeDepth (fun i => (el i).L) j = top - z j := by
    intro j
    rw [show (fun i => (el i).L) = fun i : Fin n => |z i.castSucc - z i.succ| from
      funext fun i => length_of_elementsOn hel i, ← h0]
    exact depth_of_elevations z hanti j
  have hmat : p.material = ⟨uw, E, nu⟩ := by
    unfold Pile.mkMaterial at hm
    split_ifs at hm
    exact (Option.some.inj hm).symm
  have hnu1 : -1 < nu := by
    unfold Pile.mkMaterial at hm
    split_ifs at hm with hc
    exact hc.2.2.1
  have hreg : ∀ i, Regular ty (el i) := by
    intro i
    have hg := (hgood i).1
    exact ⟨hg.L.ne', hg.E.ne', hg.A.ne', hg.I.ne',
      by have := phi_nonneg ty (el i) hg (hgood i).2; positivity⟩
  have huni : Uniform el ⟨1, E, ringArea pi D t, ringInertia pi D t, D, t, nu⟩ := by
    intro i
    obtain ⟨s, hsf, e⟩ := hel i
    have hmem : s ∈ p.sections := by
      have : s ∈ p.sections.filter (fun s => decide (z i.castSucc ≤ s.top ∧ z i.succ ≥ s.bottom)) := by
        rw [hsf]; simp
      exact (List.mem_filter.1 this).1
    obtain ⟨hD, ht⟩ := hu s hmem
    rw [e]
    unfold elemOf
    rw [hmat, hD, ht]
    simp only [Elem.mk.injEq, true_and, and_true]
    unfold Pile.Section.area Pile.Section.inertia ringArea ringInertia
    rw [hD, ht]
    constructor <;> ring
  have hflex : compliance ty ⟨1, E, ringArea pi D t, ringInertia pi D t, D, t, nu⟩ = codeFlex pi ty E nu D t := by
    unfold compliance codeFlex
    cases ty with
    | eulerBernoulli => simp [kappa]
    | timoshenko =>
      rw [kappa_eq]
      unfold shearMod
      have : (2 : K) + 2 * nu = 2 * (1 + nu) := by ring
      dsimp only
      rw [this, mul_comm (ringArea pi D t), div_mul_eq_mul_div, div_div_eq_mul_div]
  -- conditions
  have hnear : ∀ j : Fin (n + 1), j.1 < n → ¬ Near (z j) (z (Fin.last n)) := by
    intro j hj hnr
    have := htip (z j) ((hmem _).2 ⟨j, rfl⟩) (by rw [← hl]; exact hnr)
    rw [← hl] at this
    have := hanti.injective this
    rw [this] at hj
    exact absurd hj (lt_irrefl n)
  have hleft := left_calls z P H M hnear
  rw [h0, hl] at hleft
  have hsup : ∀ j d, (R (dof j d) || decide (U (dof j d) ≠ 0)) = decide (j.1 = n) ∧ U (dof j d) = 0 := by
    intro j d
    obtain ⟨l1, l2⟩ := (hleft j).2.2.2 (axisOf d)
    rw [hU, hR, l1, l2]
    simp
  have hF0 : F (dof 0 0) = P := by
    rw [hF]
    have := (hleft 0).1
    rw [if_pos (by rfl)] at this
    exact congrArg _ this
  have hF1 : F (dof 0 1) = H := by
    rw [hF]
    have := (hleft 0).2.1
    rw [if_pos (by rfl)] at this
    exact congrArg _ this
  have hF2 : F (dof 0 2) = M := by
    rw [hF]
    have := (hleft 0).2.2.1
    rw [if_pos (by rfl)] at this
    exact congrArg _ this
  have hFz : ∀ j : Fin (n + 1), 0 < j.1 → ∀ d, F (dof j d) = 0 := by
    intro j hj d
    obtain ⟨l0, l1, l2, -⟩ := hleft j
    rw [if_neg (by omega)] at l0 l1 l2
    rw [hF]
    have hd : d = 0 ∨ d = 1 ∨ d = 2 := by fin_cases d <;> simp
    rcases hd with rfl | rfl | rfl
    · rw [show axisOf 0 = .z from rfl, l0, Int.cast_zero]
    · rw [show axisOf 1 = .y from rfl, l1, Int.cast_zero]
    · rw [show axisOf 2 = .x from rfl, l2, Int.cast_zero]
  -- the solution
  have hne : solveEquations (beamStiffness ty n el) F U (fun r => R r || decide (U r ≠ 0)) ≠ none := by
    rw [C20_beam_supports ty el hgood]
    have hlast : ∀ d, (R (dof (Fin.last n) d) || decide (U (dof (Fin.last n) d) ≠ 0)) = true := fun d => by
      rw [(hsup _ d).1]
      simp
    exact ⟨⟨_, hlast 0⟩, _, hlast 1, Or.inl ⟨_, hlast 2⟩⟩
  obtain ⟨⟨u, Q⟩, hsol⟩ := Option.ne_none_iff_exists'.1 hne
  obtain ⟨c1, c2, c3, c4, c5⟩ := C81_solution ty n1 el _ huni hreg F U _ (fun d => ⟨by rw [(hsup _ d).1]; simp, (hsup _ d).2⟩)
    (fun j hj d => by rw [(hsup j d).1]; simp; omega) hFz u Q hsol
  rw [hF0, hF1, hF2, hflex] at c1
  rw [hF0] at c3
  rw [hF1] at c4
  rw [hF1, hF2] at c5
  simp only [hdep, hl] at c1 c5
  obtain ⟨T, t1, t2, t3, t4, t5⟩ := tables_exact ty n1 z el u Q
  refine ⟨T, ?_, ?_, ?_⟩
  · rw [hs]
    unfold beam
    rw [hsol, Option.map_some, Option.bind_some]
    exact t1
  · rw [t2, hzz, List.map_ofFn]
    congr 1
    funext j
    obtain ⟨d0, d1, d2⟩ := c1 j
    rw [d0, d1, d2]
    rfl
  · rw [t5]
    exact reactions_exact z tip hl Q P H M (top - tip) c2 c3 c4 c5

/-- **C81, Euler-Bernoulli elements.** The listed displacements are those of beam theory. -/
theorem C81_euler_bernoulli (pi : K) (hpi : 0 < pi) (uw E nu : K) (p : Pile.Pile K)
    (hm : Pile.mkMaterial uw E nu = some p.material) (top tip : K)
    (hp : Stack p top tip) (hb : ∀ s ∈ p.sections, Spec.Pile.Built s ∧ s.thickness < s.diameter) (D t : K)
    (hu : ∀ s ∈ p.sections, s.diameter = D ∧ s.thickness = t) (C : Coordinates K) (h : MeshOn p top tip C)
    (htip : ∀ x ∈ C.nodes, Near x tip → x = tip) (P H M : ℤ) :
    ∃ T, solveOn pi .eulerBernoulli p C (run [] (calls top tip P H M)) = some T ∧
      Theory (E * ringArea pi D t) (E * ringInertia pi D t) 0 top tip C.nodes P H M T :=
  C81_tables_partial pi hpi .eulerBernoulli uw E nu p hm (fun h => by cases h) top tip hp hb D t hu C h htip P H M

/-- **C81, from the public calls.** -/
theorem C81_model_partial (pi : K) (hpi : 0 < pi) (ty : ElementType) (uw E nu : K) (mat : Pile.Material K)
    (hm : Pile.mkMaterial uw E nu = some mat) (hnu : ty = .timoshenko → -(3 / 4) ≤ nu)
    (sections : List (Pile.Section K)) (hb : ∀ s ∈ sections, Spec.Pile.Built s ∧ s.thickness < s.diameter) (D t : K)
    (hu : ∀ s ∈ sections, s.diameter = D ∧ s.thickness = t)
    (p : Pile.Pile K) (hp : Pile.mkPile sections mat = .ok p) (top tip : K) (htop : p.topElevation = some top)
    (htip : p.bottomElevation = some tip) (x2 : List K) (c : K) (hc : 1 / 100 ≤ c)
    (hgrid : ∀ r, Spec.Mesh.Required p tip none x2 r → Spec.Mesh.OnGrid r) (hin : ∀ x ∈ x2, tip ≤ x ∧ x ≤ top) :
    ∃ C, getCoordinates p none x2 c = some C ∧ ((∀ x ∈ C.nodes, Near x tip → x = tip) → ∀ P H M : ℤ,
      ∃ T, solveModel pi ty p x2 c (run [] (calls top tip P H M)) = some T ∧
        Theory (E * ringArea pi D t) (E * ringInertia pi D t) (codeFlex pi ty E nu D t) top tip C.nodes P H M T) := by
  obtain ⟨hst, -, C, hC, hmesh, hs⟩ := ready pi hpi ty uw E nu mat hm hnu sections hb p hp top tip htop htip x2 c hc
    hgrid hin
  obtain ⟨-, hmem⟩ := mkPile_sections sections mat p hp
  have hmat : p.material = mat := by
    unfold Pile.mkPile at hp
    split at hp
    · cases hp
    · simp only at hp
      split at hp
      · cases hp; rfl
      · cases hp
  refine ⟨C, hC, fun hnear P H M => ?_⟩
  rw [hs]
  exact C81_tables_partial pi hpi ty uw E nu p (hmat ▸ hm) hnu top tip hst (fun s hs => hb s ((hmem s).1 hs)) D t
    (fun s hs => hu s ((hmem s).1 hs)) C hmesh hnear P H M

/-- **C81, violated.** With Timoshenko elements and an ordinary material, whatever the pile, the mesh and the loads, every
listed lateral displacement above the tip is too small in the direction of the lateral load. -/
theorem C81_violated_timoshenko (pi : K) (hpi : 0 < pi) (uw E nu : K) (p : Pile.Pile K)
    (hm : Pile.mkMaterial uw E nu = some p.material) (hnu : 0 ≤ nu) (top tip : K)
    (hp : Stack p top tip) (hb : ∀ s ∈ p.sections, Spec.Pile.Built s ∧ s.thickness < s.diameter) (D t : K)
    (hu : ∀ s ∈ p.sections, s.diameter = D ∧ s.thickness = t) (C : Coordinates K) (h : MeshOn p top tip C)
    (htip : ∀ x ∈ C.nodes, Near x tip → x = tip) (P H M : ℤ) (hH : H ≠ 0) :
    ∃ T, solveOn pi .timoshenko p C (run [] (calls top tip P H M)) = some T ∧
      T.disp.map (·.1) = C.nodes ∧ ∀ row ∈ T.disp, row.1 ≠ tip →
        0 < (H : K) * (beamDisp (E * ringInertia pi D t) (trueFlex pi E nu D t) (H : K) (M : K) (top - tip) (top - row.1)
          - row.2.2.1) := by
  obtain ⟨T, hT, hd, -⟩ := C81_tables_partial pi hpi .timoshenko uw E nu p hm (fun _ => by linarith) top tip hp hb D t hu C h
    htip P H M
  refine ⟨T, hT, ?_, ?_⟩
  · rw [hd, List.map_map]
    exact List.map_id _
  · intro row hrow hne
    rw [hd] at hrow
    obtain ⟨e, he, rfl⟩ := List.mem_map.1 hrow
    dsimp only at hne ⊢
    have hte : tip < e := by
      have := h.last
      rcases List.eq_nil_or_concat C.nodes with h0 | ⟨l, x, hl⟩
      · rw [h0] at he
        cases he
      · rw [List.concat_eq_append] at hl
        rw [hl] at he this
        rw [List.getLast?_concat, Option.some.injEq] at this
        subst this
        rcases List.mem_append.1 he with h1 | h1
        · have hdec := h.dec
          rw [hl, List.pairwise_append] at hdec
          exact hdec.2.2 e h1 _ (by simp)
        · exact absurd (by simpa using h1) hne
    obtain ⟨s, hs⟩ : ∃ s, s ∈ p.sections := by
      have := hp.first
      cases hsec : p.sections with
      | nil =>
        unfold Pile.Pile.topElevation at this
        rw [hsec] at this
        cases this
      | cons s l => exact ⟨s, by simp⟩
    obtain ⟨⟨t', b', d', th, hbs⟩, hlt⟩ := hb s hs
    have hg := goodElem_of_built pi hpi uw E nu p.material hm t' b' d' th s hbs hlt 1 one_pos
    obtain ⟨hD, ht⟩ := hu s hs
    have hmat : p.material = ⟨uw, E, nu⟩ := by
      unfold Pile.mkMaterial at hm
      split_ifs at hm
      exact (Option.some.inj hm).symm
    have hE : 0 < E := by
      have := hg.E
      rw [hmat] at this
      exact this
    have hnu2 : nu ≤ 1 / 2 := by
      have := hg.nu_le
      rw [hmat] at this
      exact this
    have hA : 0 < ringArea pi D t := by
      have := hg.A
      have e1 : (elemOf pi p.material s 1).A = ringArea pi D t := by
        show s.area pi = _
        unfold Pile.Section.area ringArea
        rw [hD, ht]
        ring
      rw [← e1]
      exact this
    have hd0 : 0 < D := by
      have := hg.d
      rw [show (elemOf pi p.material s 1).d = s.diameter from rfl, hD] at this
      exact this
    have hk := hutchinson_pos (D / 2) ((D - 2 * t) / 2) nu (by linarith) (by linarith)
    have hk1 := hutchinson_lt_one (D / 2) ((D - 2 * t) / 2) nu (by linarith) hnu hnu2
    unfold beamDisp trueFlex codeFlex
    dsimp only
    generalize hutchinson (D / 2) ((D - 2 * t) / 2) nu = k at hk hk1 ⊢
    generalize ringArea pi D t = A at hA ⊢
    generalize ringInertia pi D t = I
    have hHH : 0 < (H : K) * H := mul_self_pos.2 (by exact_mod_cast hH)
    have e1 : (H : K) * (((H : K) * ((top - e) ^ 3 - 3 * (top - tip) ^ 2 * (top - e) + 2 * (top - tip) ^ 3) / 6
          - M * ((top - tip) - (top - e)) ^ 2 / 2) / (E * I) + 2 * (1 + nu) / (k * (E * A)) * H * ((top - tip) - (top - e))
        - (((H : K) * ((top - e) ^ 3 - 3 * (top - tip) ^ 2 * (top - e) + 2 * (top - tip) ^ 3) / 6
          - M * ((top - tip) - (top - e)) ^ 2 / 2) / (E * I) + k * (2 * (1 + nu)) / (E * A) * H * ((top - tip) - (top - e))))
        = (H : K) * H * (e - tip) * (2 * (1 + nu)) / (E * A) * ((1 - k ^ 2) / k) := by
      field_simp
      ring
    rw [e1]
    have hk2 : 0 < 1 - k ^ 2 := by nlinarith
    have h1 : 0 < e - tip := sub_pos.2 hte
    have h2 : 0 < 1 + nu := by linarith
    positivity

/-! ### cases that meet the hypotheses -/

/-- Two lengths of the same tube. -/
def pileU : Pile.Pile ℚ := ⟨[⟨0, -4, 1, 1 / 20⟩, ⟨-4, -10, 1, 1 / 20⟩], Pile.steel⟩

theorem stackU : Stack pileU 0 (-10) := ⟨by simp [pileU], by simp [pileU]; norm_num, rfl, rfl⟩

theorem meshU : MeshOn pileU 0 (-10) nodesE := ⟨by decide +kernel, by decide +kernel, rfl, rfl, by decide +kernel⟩

theorem builtU : ∀ s ∈ pileU.sections, Spec.Pile.Built s ∧ s.thickness < s.diameter := by
  simp only [Pile.built_iff, pileU]
  norm_num

theorem sameU : ∀ s ∈ pileU.sections, s.diameter = 1 ∧ s.thickness = 1 / 20 := by
  simp [pileU]

theorem nearU : ∀ x ∈ nodesE.nodes, Near x (-10) → x = -10 := by
  intro x hx hn
  unfold Near at hn
  simp only [nodesE, List.mem_cons, List.not_mem_nil, or_false] at hx
  rcases hx with rfl | rfl | rfl | rfl | rfl | rfl <;> first | rfl | (norm_num [abs_of_pos, abs_of_neg] at hn)

/-- 100 kN across and 500 kN down at the head of a tube of 10 m, in both theories. -/
example (ty : ElementType) : ∃ T, solveOn (22 / 7) ty pileU nodesE (run [] (calls 0 (-10) (-500) 100 0)) = some T ∧
    Theory (210000000 * ringArea (22 / 7) 1 (1 / 20)) (210000000 * ringInertia (22 / 7) 1 (1 / 20))
      (codeFlex (22 / 7) ty 210000000 (3 / 10) 1 (1 / 20)) 0 (-10) nodesE.nodes (-500) 100 0 T :=
  C81_tables_partial (22 / 7) (by norm_num) ty 78 210000000 (3 / 10) pileU (by decide +kernel) (fun _ => by norm_num) 0 (-10)
    stackU builtU 1 (1 / 20) sameU nodesE meshU nearU (-500) 100 0

/-- In Euler-Bernoulli elements the head moves by `H L³ / (3 E I)`. -/
example : ∃ T, solveOn (22 / 7) .eulerBernoulli pileU nodesE (run [] (calls 0 (-10) 0 100 0)) = some T ∧
    (T.disp.head?).map (fun r => r.2.2.1) = some (100 * 10 ^ 3 / (3 * (210000000 * ringInertia (22 / 7) 1 (1 / 20)))) ∧
    T.reactions = [(-10, [0, -100, 1000])] := by
  obtain ⟨T, hT, hd, hr⟩ := C81_euler_bernoulli (22 / 7) (by norm_num) 78 210000000 (3 / 10) pileU (by decide +kernel) 0 (-10)
    stackU builtU 1 (1 / 20) sameU nodesE meshU nearU 0 100 0
  refine ⟨T, hT, ?_, ?_⟩
  · rw [hd]
    decide +kernel
  · rw [hr]
    decide +kernel

example : ∃ T, solveOn (22 / 7) .timoshenko pileU nodesE (run [] (calls 0 (-10) 0 100 0)) = some T ∧
    T.disp.map (·.1) = nodesE.nodes ∧ ∀ row ∈ T.disp, row.1 ≠ -10 → 0 < ((100 : ℤ) : ℚ) *
      (beamDisp (210000000 * ringInertia (22 / 7) 1 (1 / 20)) (trueFlex (22 / 7) 210000000 (3 / 10) 1 (1 / 20))
        ((100 : ℤ) : ℚ) ((0 : ℤ) : ℚ) (0 - -10) (0 - row.1) - row.2.2.1) :=
  C81_violated_timoshenko (22 / 7) (by norm_num) 78 210000000 (3 / 10) pileU (by decide +kernel) (by norm_num) 0 (-10)
    stackU builtU 1 (1 / 20) sameU nodesE meshU nearU 0 100 0 (by norm_num)

end tables

end OpenPile.Props.Cantilever

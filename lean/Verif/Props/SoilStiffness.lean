/-
Property C53: every spring resists the displacement component it belongs to.
-/
import Verif.Props.Winkler
import Verif.Props.Beam
import Verif.Props.Spring

namespace OpenPile.Props.SoilStiffness
open OpenPile.Winkler OpenPile.Kernel OpenPile.Spring OpenPile.Spec.Kernel OpenPile.Spec.Spring
open OpenPile.Props.Winkler OpenPile.Props.Spring

variable {K : Type} [Field K] [LinearOrder K] [IsStrictOrderedRing K]

/-- The node whose displacement the spring at the top (`false`) or bottom (`true`) of element `e` sees:
its own node, except at the pile tip (see C52). -/
def seenNode {n : ℕ} (e : Fin n) (b : Bool) : Fin (n + 1) :=
  if b = true ∧ e.1 + 1 < n then e.succ else e.castSucc

omit [LinearOrder K] [IsStrictOrderedRing K] in
theorem springDisp_seen {n : ℕ} (u : Fin (3 * n + 3) → K) (s : Fin 3) (e : Fin n) (b : Bool) :
    springDisp u s e b = some (u (dof (seenNode e b) s)) := by
  obtain ⟨h1, h2⟩ := C52_own_node_partial u s e
  cases b
  · rw [h1]
    simp [seenNode, dof]
  · by_cases he : e.1 + 1 < n
    · rw [h2 he]
      simp [seenNode, dof, he]
    · cases n with
      | zero => exact absurd e.2 (by omega)
      | succ n =>
        have hl : e = Fin.last n := Fin.ext (by have := e.2; simp; omega)
        subst hl
        rw [C52_violated]
        simp [seenNode, dof]

omit [Field K] [LinearOrder K] [IsStrictOrderedRing K] in
theorem allSome_iff {n : ℕ} {α : Type} (f : Fin n → Option α) (g : Fin n → α) :
    allSome f = some g ↔ ∀ i, f i = some (g i) := by
  unfold allSome
  by_cases h : ∀ i, (f i).isSome
  · rw [dif_pos h]
    constructor
    · intro e i
      rw [← Option.some.inj e]
      simp
    · intro e
      congr 1
      funext i
      simp [e i]
  · rw [dif_neg h]
    simp only [reduceCtorEq, false_iff, not_forall]
    push Not at h
    obtain ⟨i, hi⟩ := h
    exact ⟨i, fun e => hi (by simp [e])⟩

/-- The value for the top (`false`) or bottom (`true`) of an element. -/
def side {α : Type} (p : α × α) (b : Bool) : α := if b then p.2 else p.1

/-- What the stiffness of the distributed springs of element `e` must be at the displacements `u`. -/
structure Distributed {n : ℕ} (sp : Springs K n) (kind : Kind) (u : Fin (3 * n + 3) → K) (e : Fin n)
    (s : SoilK K) : Prop where
  lateral : ∀ b, sp.distributedLateral = true →
    pyStiffness (sp.py e b) kind (u (dof (seenNode e b) 1)) = some (side s.py b)
  noLateral : ∀ b, sp.distributedLateral = false → side s.py b = 0
  axial : ∀ b, sp.distributedAxial = true →
    tzStiffness (sp.tz e b) kind (u (dof (seenNode e b) 0)) = some (side s.tz b)
  noAxial : ∀ b, sp.distributedAxial = false → side s.tz b = 0
  moment : ∀ b, sp.distributedMoment = true → ∃ ks,
    pyStiffness (sp.py e b) .secant (u (dof (seenNode e b) 1)) = some ks ∧
    mtStiffness (sp.mt e b) sp.ncol (ks * u (dof (seenNode e b) 1)) kind (u (dof (seenNode e b) 2))
      = some (side s.mt b)
  noMoment : ∀ b, sp.distributedMoment = false → side s.mt b = 0

/-- The stiffness matrix at displacements `u` in terms of the stiffnesses of the springs. -/
theorem build_parts (ty : ElementType) {n : ℕ} (el : Fin n → Elem K) (sp : Springs K n) (kind : Kind)
    (u : Fin (3 * n + 3) → K) (A : Matrix (Fin (3 * n + 3)) (Fin (3 * n + 3)) K)
    (hA : buildStiffness ty el sp kind u = some A) :
    ∃ (s : Fin n → SoilK K) (h m q : K), (∀ e, Distributed sp kind u e (s e)) ∧
      (if sp.baseShear then baseStiffness sp.hb kind (u (dof (Fin.last n) 1)) else some 0) = some h ∧
      (if sp.baseMoment then baseStiffness sp.mb kind (u (dof (Fin.last n) 2)) else some 0) = some m ∧
      (if sp.baseAxial then baseAxialStiffness sp.qz kind (u (dof (Fin.last n) 0)) else some 0)
        = some q ∧ soilStiffness ty n el s h m q = A := by
  have hA' : ∃ s, allSome (soilAt sp kind u) = some s ∧ ∃ h,
      (if sp.baseShear then baseStiffness sp.hb kind (u ⟨3 * n + 1, by omega⟩) else some 0) = some h ∧
      ∃ m, (if sp.baseMoment then baseStiffness sp.mb kind (u ⟨3 * n + 2, by omega⟩) else some 0)
        = some m ∧
      ∃ q, (if sp.baseAxial then baseAxialStiffness sp.qz kind (u ⟨3 * n, by omega⟩) else some 0)
        = some q ∧ soilStiffness ty n el s h m q = A := by
    unfold buildStiffness at hA
    cases h1 : sp.baseShear <;> cases h2 : sp.baseMoment <;> cases h3 : sp.baseAxial <;>
      simpa [h1, h2, h3, Option.bind_eq_some_iff] using hA
  obtain ⟨s, hs, h, hh, m, hm, q, hq, rfl⟩ := hA'
  refine ⟨s, h, m, q, ?_, hh, hm, hq, rfl⟩
  intro e
  have he := (allSome_iff _ _).1 hs e
  unfold soilAt at he
  simp only [Option.bind_eq_bind, Option.bind_eq_some_iff, Option.pure_def, Option.some.injEq] at he
  obtain ⟨p0, hp0, p1, hp1, t0, ht0, t1, ht1, m0, hm0, m1, hm1, hse⟩ := he
  have hp : ∀ b, pyAt sp kind u e b = some (side (s e).py b) := by
    intro b
    rw [← hse]
    cases b
    · exact hp0
    · exact hp1
  have ht : ∀ b, tzAt sp kind u e b = some (side (s e).tz b) := by
    intro b
    rw [← hse]
    cases b
    · exact ht0
    · exact ht1
  have hmm : ∀ b, mtAt sp kind u e b = some (side (s e).mt b) := by
    intro b
    rw [← hse]
    cases b
    · exact hm0
    · exact hm1
  constructor
  · intro b hb
    have := hp b
    unfold pyAt at this
    simpa [hb, springDisp_seen] using this
  · intro b hb
    have := hp b
    unfold pyAt at this
    simp [hb] at this
    exact this.symm
  · intro b hb
    have := ht b
    unfold tzAt at this
    simpa [hb, springDisp_seen] using this
  · intro b hb
    have := ht b
    unfold tzAt at this
    simp [hb] at this
    exact this.symm
  · intro b hb
    have := hmm b
    unfold mtAt at this
    by_cases hl : sp.distributedLateral = true
    · simp only [hb, hl, if_true, springDisp_seen, Option.bind_eq_bind, Option.bind_some,
        Option.bind_eq_some_iff] at this
      exact this
    · simp [hb, hl] at this
  · intro b hb
    have := hmm b
    unfold mtAt at this
    simp [hb] at this
    exact this.symm

/-- **C53.** The stiffness matrix at displacements `u` resists a displacement `v` with the energy of the
pile, of the lateral springs evaluated at the lateral displacements, of the axial springs evaluated at the
axial displacements, of the rotational springs evaluated at the rotations and the mobilised lateral
resistance, and of the three base springs, evaluated at and acting on the three components of the pile
tip. -/
theorem C53_springs (ty : ElementType) {n : ℕ} (el : Fin n → Elem K) (sp : Springs K n) (kind : Kind)
    (u : Fin (3 * n + 3) → K) (A : Matrix (Fin (3 * n + 3)) (Fin (3 * n + 3)) K)
    (hA : buildStiffness ty el sp kind u = some A) :
    ∃ (s : Fin n → SoilK K) (h m q : K), (∀ e, Distributed sp kind u e (s e)) ∧
      (if sp.baseShear then baseStiffness sp.hb kind (u (dof (Fin.last n) 1)) else some 0) = some h ∧
      (if sp.baseMoment then baseStiffness sp.mb kind (u (dof (Fin.last n) 2)) else some 0) = some m ∧
      (if sp.baseAxial then baseAxialStiffness sp.qz kind (u (dof (Fin.last n) 0)) else some 0)
        = some q ∧
      ∀ v, energy A v = ∑ i, (energy (mechMatrix ty (el i)) (stacked v i)
        + energy (pyMatrix (el i).L (s i).py.1 (s i).py.2) (stacked v i)
        + energy (tzMatrix (el i).L (s i).tz.1 (s i).tz.2) (stacked v i)
        + energy (mtMatrix ty (el i) (s i).mt.1 (s i).mt.2) (stacked v i))
      + (q * v (dof (Fin.last n) 0) ^ 2 + h * v (dof (Fin.last n) 1) ^ 2
        + m * v (dof (Fin.last n) 2) ^ 2) := by
  obtain ⟨s, h, m, q, hd, hh, hm, hq, rfl⟩ := build_parts ty el sp kind u A hA
  exact ⟨s, h, m, q, hd, hh, hm, hq, fun v => (OpenPile.Props.Beam.C19_energy ty el s h m q v).1⟩

/-- **C53, moments need lateral springs.** With rotational springs but without lateral ones the analysis
stops with an error. -/
theorem C53_moment_needs_lateral (ty : ElementType) {n : ℕ} (hn : 0 < n) (el : Fin n → Elem K)
    (sp : Springs K n) (kind : Kind) (u : Fin (3 * n + 3) → K) (h : sp.distributedMoment = true)
    (h' : sp.distributedLateral = false) : buildStiffness ty el sp kind u = none := by
  cases hA : buildStiffness ty el sp kind u with
  | none => rfl
  | some A =>
    exfalso
    unfold buildStiffness at hA
    simp only [Option.bind_eq_bind, Option.bind_eq_some_iff] at hA
    obtain ⟨s, hs, -⟩ := hA
    have he := (allSome_iff _ _).1 hs ⟨0, hn⟩
    unfold soilAt at he
    simp only [Option.bind_eq_bind, Option.bind_eq_some_iff] at he
    obtain ⟨p0, hp0, p1, hp1, t0, ht0, t1, ht1, m0, hm0, -⟩ := he
    unfold mtAt at hm0
    simp [h, h'] at hm0

/-- **C53, mobilised resistance.** For a p-y table that starts at the origin, rises to the right and has no
negative resistance, the resistance handed to the rotational springs is the one on the p-y curve at the
current displacement, with the sign of the displacement. -/
theorem C53_mobilised (rest : List (K × K)) (hr : rest ≠ []) (y : K) (hs : Asc ((0, 0) :: rest))
    (hp : ∀ q ∈ rest, 0 ≤ q.2) (hy : y ≠ 0) :
    ∃ ks r, pyStiffness ((0, 0) :: rest) .secant y = some ks ∧ OnCurve ((0, 0) :: rest) |y| r ∧
      (0 < y → ks * y = r) ∧ (y < 0 → ks * y = -r) := by
  obtain ⟨k, r, h1, h2, h3⟩ := C24_secant 0 rest hr y hs hy
  have hr0 : 0 ≤ r := by
    rcases h2 with ⟨l₁, l₂, a, f, b, g, ht, ha, hb, he⟩ | ⟨l, a, f, ht, ha, rfl⟩
    · have hf : 0 ≤ f := by
        have : (a, f) ∈ (0, 0) :: rest := by rw [ht]; simp
        rcases List.mem_cons.1 this with h | h
        · rw [(Prod.mk.injEq _ _ _ _ ▸ h : a = 0 ∧ f = 0).2]
        · exact hp _ h
      have hg : 0 ≤ g := by
        have : (b, g) ∈ (0, 0) :: rest := by rw [ht]; simp
        rcases List.mem_cons.1 this with h | h
        · rw [(Prod.mk.injEq _ _ _ _ ▸ h : b = 0 ∧ g = 0).2]
        · exact hp _ h
      have hab : a < b := by
        rw [ht] at hs
        have := (List.pairwise_append.1 hs).2.1
        exact (List.pairwise_cons.1 this).1 (b, g) (by simp)
      have e : r * (b - a) = f * (b - |y|) + g * (|y| - a) := by linear_combination he
      have : 0 ≤ r * (b - a) := by
        rw [e]
        have := mul_nonneg hf (sub_nonneg.2 hb)
        have := mul_nonneg hg (sub_nonneg.2 ha)
        linarith
      exact nonneg_of_mul_nonneg_left this (sub_pos.2 hab)
    · have : (a, r) ∈ (0, 0) :: rest := by rw [ht]; simp
      rcases List.mem_cons.1 this with h | h
      · rw [(Prod.mk.injEq _ _ _ _ ▸ h : a = 0 ∧ r = 0).2]
      · exact hp _ h
  rw [sub_zero, abs_of_nonneg hr0] at h3
  refine ⟨k, r, h1, h2, ?_, ?_⟩
  · intro h
    rw [abs_of_pos h] at h3
    exact h3
  · intro h
    rw [abs_of_neg h] at h3
    linarith

/-- A pile of one element with lateral, axial, rotational and base springs. -/
def demoSprings : Springs ℚ 1 where
  py _ _ := [(0, 0), (1, 100), (2, 150)]
  tz _ _ := [(2, 20), (1, 20), (1/2, 10), (0, 0), (-1/2, -5), (-1, -8), (-2, -8)]
  mt _ _ := demoMt
  ncol := 3
  hb := [(0, 0), (1, 7), (2, 9)]
  mb := [(0, 0), (1, 3), (2, 5)]
  qz := [(2, 6), (1, 5), (1/2, 4), (0, 0), (-1/2, 0), (-1, 0), (-2, 0)]
  distributedLateral := true
  distributedAxial := true
  distributedMoment := true
  baseShear := true
  baseMoment := true
  baseAxial := true

/-- The demo pile has a stiffness matrix at a displacement with all components. -/
example (el : Fin 1 → Elem ℚ) : (buildStiffness .eulerBernoulli el demoSprings .secant
    (fun r => if r.1 % 3 = 2 then 1/100 else 1/4)).isSome = true := by
  have hs : ∃ s, allSome (soilAt demoSprings .secant
      (fun r : Fin (3 * 1 + 3) => if r.1 % 3 = 2 then (1/100 : ℚ) else 1/4)) = some s := by
    refine ⟨fun _ => ⟨(100, 100), (20, 20), (mtStiffness demoMt 3 25 .secant (1/100)).get (by decide +kernel),
      (mtStiffness demoMt 3 25 .secant (1/100)).get (by decide +kernel)⟩, ?_⟩
    rw [allSome_iff]
    intro i
    have : i = 0 := Subsingleton.elim _ _
    subst this
    decide +kernel
  obtain ⟨s, hs⟩ := hs
  unfold buildStiffness
  rw [hs]
  have h1 : ∃ x, baseStiffness demoSprings.hb .secant (1/4 : ℚ) = some x :=
    ⟨(baseStiffness demoSprings.hb .secant (1/4 : ℚ)).get (by decide +kernel), by simp⟩
  have h2 : ∃ x, baseStiffness demoSprings.mb .secant (1/100 : ℚ) = some x :=
    ⟨(baseStiffness demoSprings.mb .secant (1/100 : ℚ)).get (by decide +kernel), by simp⟩
  have h3 : ∃ x, baseAxialStiffness demoSprings.qz .secant (1/4 : ℚ) = some x :=
    ⟨(baseAxialStiffness demoSprings.qz .secant (1/4 : ℚ)).get (by decide +kernel), by simp⟩
  obtain ⟨x, h1⟩ := h1
  obtain ⟨y, h2⟩ := h2
  obtain ⟨z, h3⟩ := h3
  have f1 : demoSprings.baseShear = true := rfl
  have f2 : demoSprings.baseMoment = true := rfl
  have f3 : demoSprings.baseAxial = true := rfl
  norm_num [f1, f2, f3]
  rw [one_div] at h1 h2 h3
  simp [h1, h2, h3]

end OpenPile.Props.SoilStiffness

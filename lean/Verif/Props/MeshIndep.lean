/-
Property C55, continued: any two meshes of the same beam give the same results at their common nodes.
-/
import Verif.Props.Refine

namespace OpenPile.Props.Refine
open OpenPile.Kernel OpenPile.Spec.Kernel OpenPile.Spec.March Matrix OpenPile.Props.Element
  OpenPile.Props.Solve OpenPile.Props.Beam

variable {K : Type} [Field K] [LinearOrder K] [IsStrictOrderedRing K] {n m : ℕ}

omit [LinearOrder K] [IsStrictOrderedRing K] in
/-- Every element of the fine mesh lies in an element of the coarse one. -/
theorem owner_exists {el : Fin n → Elem K} {el' : Fin m → Elem K} {σ : Fin (n + 1) → Fin (m + 1)}
    (hs : SameBeam el el' σ) (k : Fin m) : ∃ i, Inside σ i k := by
  by_contra hcon
  have : ∀ j : Fin (n + 1), (σ j).1 ≤ k.1 := by
    intro j
    induction j using Fin.induction with
    | zero => rw [hs.refines.first]; exact Nat.zero_le _
    | succ i ih =>
      by_contra h
      exact hcon ⟨i, ih, by omega⟩
  have := this (Fin.last n)
  rw [hs.refines.last] at this
  have := k.2
  simp at *
  omega

omit [LinearOrder K] [IsStrictOrderedRing K] in
theorem owner_unique {el : Fin n → Elem K} {el' : Fin m → Elem K} {σ : Fin (n + 1) → Fin (m + 1)}
    (hs : SameBeam el el' σ) (k : Fin m) (i i' : Fin n) (h : Inside σ i k) (h' : Inside σ i' k) : i = i' := by
  have key : ∀ a b : Fin n, Inside σ a k → Inside σ b k → a.1 ≤ b.1 := by
    intro a b ha hb
    by_contra hlt
    have : σ b.succ ≤ σ a.castSucc := hs.refines.mono.monotone (by
      rw [Fin.le_def]; simp; omega)
    rw [Fin.le_def] at this
    have := ha.1
    have := hb.2
    omega
  exact Fin.ext (le_antisymm (key _ _ h h') (key _ _ h' h))

/-- Displacement `d` of a station. -/
def moves (s : Station K) (d : Fin 3) : K := ![s.w, s.v, s.θ] d

/-- Every displacement field of the coarse mesh extends to the fine mesh without forces at the additional
nodes. -/
theorem extend (ty : ElementType) (el : Fin n → Elem K) (el' : Fin m → Elem K)
    (σ : Fin (n + 1) → Fin (m + 1)) (hs : SameBeam el el' σ) (hr : ∀ i, Regular ty (el i))
    (hr' : ∀ k, Regular ty (el' k)) (w : Fin (3 * n + 3) → K) :
    ∃ u : Fin (3 * m + 3) → K, restrict σ u = w ∧
      ∀ k, k ∉ Set.range σ → ∀ d, (beamStiffness ty m el' *ᵥ u) (dof k d) = 0 := by
  classical
  choose own hown using owner_exists hs
  let st : Fin m → Station K := fun k => along ty (el (own k))
    (nodeDepth (fun k => (el' k).L) k.castSucc - nodeDepth (fun i => (el i).L) (own k).castSucc)
    (topStation ty (el (own k)) (stacked w (own k)))
  let val : Fin (m + 1) → Fin 3 → K := fun k d =>
    if h : k.1 < m then moves (st ⟨k.1, h⟩) d else w (dof (Fin.last n) d)
  let u : Fin (3 * m + 3) → K := fun r => val ⟨r.1 / 3, by omega⟩ ⟨r.1 % 3, by omega⟩
  have hu : ∀ k d, u (dof k d) = val k d := by
    intro k d
    show val _ _ = _
    congr 1
    · ext; simp only [dof]; omega
    · ext; simp only [dof]; omega
  have topMoves : ∀ i d, moves (topStation ty (el i) (stacked w i)) d = w (dof i.castSucc d) := by
    intro i d
    obtain ⟨a0, a1, a2, -, -, -⟩ := stacked_top w i
    fin_cases d
    · exact a0
    · exact a1
    · exact a2
  have botMoves : ∀ i d, moves (botStation ty (el i) (stacked w i)) d = w (dof i.succ d) := by
    intro i d
    obtain ⟨-, -, -, a0, a1, a2⟩ := stacked_top w i
    fin_cases d
    · exact a0
    · exact a1
    · exact a2
  -- values at the nodes of the coarse mesh
  have hval : ∀ j d, val (σ j) d = w (dof j d) := by
    intro j d
    by_cases hj : (σ j).1 < m
    · have hjn : j.1 < n := by
        by_contra h
        have : j = Fin.last n := Fin.ext (by have := j.2; simp; omega)
        rw [this, hs.refines.last] at hj
        simp at hj
      have hi : own ⟨(σ j).1, hj⟩ = ⟨j.1, hjn⟩ := by
        refine owner_unique hs _ _ _ (hown _) ⟨le_refl _, ?_⟩
        exact sigma_lt hs ⟨j.1, hjn⟩
      show (if h : (σ j).1 < m then _ else _) = _
      rw [dif_pos hj]
      show moves (along ty (el (own ⟨(σ j).1, hj⟩)) _ _) d = _
      rw [hi]
      have e1 : (⟨(σ j).1, hj⟩ : Fin m).castSucc = σ j := Fin.ext rfl
      have e2 : (⟨j.1, hjn⟩ : Fin n).castSucc = j := Fin.ext rfl
      rw [e1, e2, hs.refines.depth, sub_self, along_zero, topMoves, e2]
    · show (if h : (σ j).1 < m then _ else _) = _
      rw [dif_neg hj]
      have : j = Fin.last n := by
        apply hs.refines.mono.injective
        rw [hs.refines.last]
        exact Fin.ext (by have := (σ j).2; simp; omega)
      rw [this]
  -- the end of an element
  have hend : ∀ k : Fin m, ∀ d, val k.succ d = moves (along ty (el' k) (el' k).L (st k)) d := by
    intro k d
    have hin := hown k
    have hlen : along ty (el' k) (el' k).L (st k) = along ty (el (own k))
        (nodeDepth (fun k => (el' k).L) k.succ - nodeDepth (fun i => (el i).L) (own k).castSucc)
        (topStation ty (el (own k)) (stacked w (own k))) := by
      have e := hs.same _ _ hin
      have d := nodeDepth_succ (fun k => (el' k).L) k
      generalize hx : (el' k).L = x at e d ⊢
      rw [e, along_length]
      show along ty _ x (along ty _ _ _) = _
      rw [along_add ty _ (hr _).E (hr _).A (hr _).I]
      congr 1
      rw [d]
      ring
    rw [hlen]
    by_cases hend : k.1 + 1 = (σ (own k).succ).1
    · have e : k.succ = σ (own k).succ := Fin.ext hend
      rw [e, hval, hs.refines.depth, nodeDepth_succ, add_sub_cancel_left, elem_along ty _ (hr _), botMoves]
    · have h2 := hin.2
      have hkm : k.1 + 1 < m := by have := (σ (own k).succ).2; omega
      have hi : own ⟨k.1 + 1, hkm⟩ = own k :=
        owner_unique hs _ _ _ (hown _) ⟨by have := hin.1; show _ ≤ k.1 + 1; omega, by
          show k.1 + 1 < _; omega⟩
      show (if h : k.succ.1 < m then _ else _) = _
      rw [dif_pos (show k.succ.1 < m from hkm)]
      show moves (along ty (el (own ⟨k.1 + 1, hkm⟩))
        (nodeDepth (fun k => (el' k).L) k.succ - nodeDepth (fun i => (el i).L) (own ⟨k.1 + 1, hkm⟩).castSucc)
        (topStation ty (el (own ⟨k.1 + 1, hkm⟩)) (stacked w (own ⟨k.1 + 1, hkm⟩)))) d = _
      rw [hi]
  have hst : ∀ k, topStation ty (el' k) (stacked u k) = st k ∧
      botStation ty (el' k) (stacked u k) = along ty (el' k) (el' k).L (st k) := by
    intro k
    obtain ⟨a0, a1, a2, b0, b1, b2⟩ := stacked_top u k
    rw [hu] at a0 a1 a2 b0 b1 b2
    have ha : ∀ d, val k.castSucc d = moves (st k) d := by
      intro d
      show (if h : k.castSucc.1 < m then _ else _) = _
      rw [dif_pos (show k.castSucc.1 < m from k.2)]
      rfl
    rw [ha] at a0 a1 a2
    rw [hend] at b0 b1 b2
    have := elem_of_along ty (el' k) (hr' k) (stacked u k) (st k).N (st k).V (st k).M
      (along ty (el' k) (el' k).L (st k)).N (along ty (el' k) (el' k).L (st k)).V
      (along ty (el' k) (el' k).L (st k)).M (by rw [a0, a1, a2, b0, b1, b2]; rfl)
    rw [a0, a1, a2, b0, b1, b2] at this
    exact this
  refine ⟨u, ?_, ?_⟩
  · funext r
    obtain ⟨j, d, rfl⟩ := dof_surjective r
    rw [restrict_dof, hu, hval]
  · intro k hk d
    have hk0 : 0 < k.1 := Nat.pos_of_ne_zero (fun h => hk ⟨0, by rw [hs.refines.first]; exact Fin.ext h.symm⟩)
    have hkm : k.1 < m := by
      rcases Nat.lt_or_ge k.1 m with h | h
      · exact h
      · exact absurd ⟨Fin.last n, by
          rw [hs.refines.last]; exact Fin.ext (by have := k.2; simp; omega)⟩ hk
    rw [nodal, dif_pos hkm, dif_pos hk0, (hst _).1, (hst _).2]
    have hin := hown ⟨k.1 - 1, by omega⟩
    set i := own ⟨k.1 - 1, by omega⟩ with hi
    have hne : k.1 ≠ (σ i.succ).1 := fun h => hk ⟨i.succ, Fin.ext h.symm⟩
    have hik : own ⟨k.1, hkm⟩ = i := by
      refine owner_unique hs _ _ _ (hown _) ⟨?_, ?_⟩
      · have h1 : _ ≤ k.1 - 1 := hin.1
        show _ ≤ k.1
        omega
      · have h1 : k.1 - 1 < _ := hin.2
        show k.1 < _
        omega
    have hlen : along ty (el' ⟨k.1 - 1, by omega⟩) (el' ⟨k.1 - 1, by omega⟩).L (st ⟨k.1 - 1, by omega⟩)
        = st ⟨k.1, hkm⟩ := by
      have e := hs.same _ _ hin
      have d := nodeDepth_succ (fun k => (el' k).L) ⟨k.1 - 1, by omega⟩
      have e1 : (⟨k.1 - 1, by omega⟩ : Fin m).succ = (⟨k.1, hkm⟩ : Fin m).castSucc :=
        Fin.ext (by simp; omega)
      rw [e1] at d
      show along ty _ _ (along ty (el (own ⟨k.1 - 1, by omega⟩)) _ _) = along ty (el (own ⟨k.1, hkm⟩)) _ _
      rw [hik, ← hi]
      generalize hx : (el' ⟨k.1 - 1, by omega⟩).L = x at e d ⊢
      rw [e, along_length, along_add ty _ (hr _).E (hr _).A (hr _).I]
      congr 1
      rw [d]
      ring
    rw [hlen, sub_self]

/-- **C55.** Additional nodes do not make an analysis possible that is impossible without them. -/
theorem C55_fails (ty : ElementType) (el : Fin n → Elem K) (el' : Fin m → Elem K)
    (σ : Fin (n + 1) → Fin (m + 1)) (hs : SameBeam el el' σ) (hr : ∀ i, Regular ty (el i))
    (hr' : ∀ k, Regular ty (el' k)) (F U : Fin (3 * n + 3) → K) (fix : Fin (3 * n + 3) → Bool)
    (F' U' : Fin (3 * m + 3) → K) (fix' : Fin (3 * m + 3) → Bool) (hl : SameLoads σ F U fix F' U' fix') :
    beam ty el F U fix = none ↔ beam ty el' F' U' fix' = none := by
  constructor
  · intro h
    unfold beam at h ⊢
    rw [Option.map_eq_none_iff] at h ⊢
    rw [C15_fails_iff] at h ⊢
    obtain ⟨w, w0, w1, w2⟩ := h
    obtain ⟨u, hu, hz⟩ := extend ty el el' σ hs hr hr' w
    have sup : ∀ j d, (fix' (dof (σ j) d) || decide (U' (dof (σ j) d) ≠ 0))
        = (fix (dof j d) || decide (U (dof j d) ≠ 0)) := by
      intro j d
      obtain ⟨-, a, b⟩ := hl.on j d
      rw [a, b]
    refine ⟨u, ?_, ?_, ?_⟩
    · rintro rfl
      exact w0 hu.symm
    · intro r hr0
      obtain ⟨k, d, rfl⟩ := dof_surjective r
      by_cases hk : k ∈ Set.range σ
      · obtain ⟨j, rfl⟩ := hk
        rw [← restrict_dof σ u, hu]
        exact w1 _ (by rw [← sup]; exact hr0)
      · obtain ⟨-, a, b⟩ := hl.off k hk d
        rw [a, b] at hr0
        simp at hr0
    · intro r hr0
      obtain ⟨k, d, rfl⟩ := dof_surjective r
      by_cases hk : k ∈ Set.range σ
      · obtain ⟨j, rfl⟩ := hk
        rw [← coarse_forces ty el el' σ hs hr hr' u hz, hu]
        exact w2 _ (by rw [← sup]; exact hr0)
      · exact hz k hk d
  · intro h
    rcases hc : beam ty el F U fix with _ | ⟨u, Q, f⟩
    · rfl
    · obtain ⟨u', Q', f', h', -⟩ := C55_refined ty el el' σ hs hr hr' F U fix F' U' fix' hl u Q f hc
      rw [h'] at h
      simp at h

/-- **C55.** Two meshes of the same beam with common nodes at all loads, supports and changes of section: either
both analyses fail or both give the same displacements and reactions at the common nodes. -/
theorem C55_two_meshes {n₁ n₂ : ℕ} (ty : ElementType) (el : Fin n → Elem K) (el₁ : Fin n₁ → Elem K)
    (el₂ : Fin n₂ → Elem K) (σ₁ : Fin (n + 1) → Fin (n₁ + 1)) (σ₂ : Fin (n + 1) → Fin (n₂ + 1))
    (hs₁ : SameBeam el el₁ σ₁) (hs₂ : SameBeam el el₂ σ₂) (hr : ∀ i, Regular ty (el i))
    (hr₁ : ∀ k, Regular ty (el₁ k)) (hr₂ : ∀ k, Regular ty (el₂ k)) (F U : Fin (3 * n + 3) → K)
    (fix : Fin (3 * n + 3) → Bool) (F₁ U₁ : Fin (3 * n₁ + 3) → K) (fix₁ : Fin (3 * n₁ + 3) → Bool)
    (F₂ U₂ : Fin (3 * n₂ + 3) → K) (fix₂ : Fin (3 * n₂ + 3) → Bool)
    (hl₁ : SameLoads σ₁ F U fix F₁ U₁ fix₁) (hl₂ : SameLoads σ₂ F U fix F₂ U₂ fix₂) :
    (beam ty el₁ F₁ U₁ fix₁ = none ∧ beam ty el₂ F₂ U₂ fix₂ = none) ∨
    ∃ u₁ Q₁ f₁ u₂ Q₂ f₂, beam ty el₁ F₁ U₁ fix₁ = some (u₁, Q₁, f₁) ∧
      beam ty el₂ F₂ U₂ fix₂ = some (u₂, Q₂, f₂) ∧
      (∀ j d, u₁ (dof (σ₁ j) d) = u₂ (dof (σ₂ j) d) ∧ Q₁ (dof (σ₁ j) d) = Q₂ (dof (σ₂ j) d)) ∧
      (∀ k, k ∉ Set.range σ₁ → ∀ d, Q₁ (dof k d) = 0) ∧ (∀ k, k ∉ Set.range σ₂ → ∀ d, Q₂ (dof k d) = 0) ∧
      (∀ (i : Fin n) (k₁ : Fin n₁) (k₂ : Fin n₂), k₁.castSucc = σ₁ i.castSucc →
        k₂.castSucc = σ₂ i.castSucc → (f₁ k₁).1 = (f₂ k₂).1) ∧
      ∀ (i : Fin n) (k₁ : Fin n₁) (k₂ : Fin n₂), k₁.succ = σ₁ i.succ → k₂.succ = σ₂ i.succ →
        (f₁ k₁).2 = (f₂ k₂).2 := by
  rcases hc : beam ty el F U fix with _ | ⟨u, Q, f⟩
  · left
    exact ⟨(C55_fails ty el el₁ σ₁ hs₁ hr hr₁ F U fix _ _ _ hl₁).1 hc,
      (C55_fails ty el el₂ σ₂ hs₂ hr hr₂ F U fix _ _ _ hl₂).1 hc⟩
  · right
    obtain ⟨u₁, Q₁, f₁, h₁, a₁, b₁, c₁, g₁⟩ := C55_refined ty el el₁ σ₁ hs₁ hr hr₁ F U fix _ _ _ hl₁ u Q f hc
    obtain ⟨u₂, Q₂, f₂, h₂, a₂, b₂, c₂, g₂⟩ := C55_refined ty el el₂ σ₂ hs₂ hr hr₂ F U fix _ _ _ hl₂ u Q f hc
    refine ⟨u₁, Q₁, f₁, u₂, Q₂, f₂, h₁, h₂, ?_, b₁, b₂, ?_, ?_⟩
    · intro j d
      rw [(a₁ j d).1, (a₂ j d).1, (a₁ j d).2, (a₂ j d).2]
      exact ⟨rfl, rfl⟩
    · intro i k₁ k₂ e₁ e₂
      have lt₁ := sigma_lt hs₁ i
      have lt₂ := sigma_lt hs₂ i
      have v₁ : k₁.1 = (σ₁ i.castSucc).1 := by rw [← e₁]; rfl
      have v₂ : k₂.1 = (σ₂ i.castSucc).1 := by rw [← e₂]; rfl
      have r₁ := c₁ i k₁ ⟨v₁.ge, by omega⟩
      have r₂ := c₂ i k₂ ⟨v₂.ge, by omega⟩
      rw [e₁, hs₁.refines.depth, sub_self] at r₁
      rw [e₂, hs₂.refines.depth, sub_self] at r₂
      have r := r₁.trans r₂.symm
      unfold reported at r
      simp only [Station.mk.injEq] at r
      exact Prod.ext r.2.2.2.1 (Prod.ext r.2.2.2.2.1 r.2.2.2.2.2)
    · intro i k₁ k₂ e₁ e₂
      rw [g₁ i k₁ e₁, g₂ i k₂ e₂]

end OpenPile.Props.Refine

/-
Lemmas about the Matlock type p-y curves.
-/
import Verif.Model.Lateral
import Verif.Spec.Clay
import Verif.Lemmas.Conic

namespace OpenPile.Lateral

/-! ### powers -/

theorem rpow33_mono {u v : ℝ} (hu : 0 ≤ u) (h : u ≤ v) :
    u ^ (33 / 100 : ℝ) ≤ v ^ (33 / 100 : ℝ) :=
  Real.rpow_le_rpow hu h (by norm_num)

/-- Bounds on `u ^ 0.33` from the hundredth power. -/
theorem rpow33_le {u b : ℝ} (hu : 0 ≤ u) (hb : 0 ≤ b) (h : u ^ 33 ≤ b ^ 100) :
    u ^ (33 / 100 : ℝ) ≤ b := by
  have e : (u ^ (33 / 100 : ℝ)) ^ 100 = u ^ 33 := by
    rw [← Real.rpow_natCast, ← Real.rpow_mul hu, ← Real.rpow_natCast]
    norm_num
  rw [← e] at h
  exact le_of_pow_le_pow_left₀ (n := 100) (by norm_num) hb h

theorem le_rpow33 {u b : ℝ} (hu : 0 ≤ u) (h : b ^ 100 ≤ u ^ 33) :
    b ≤ u ^ (33 / 100 : ℝ) := by
  have e : (u ^ (33 / 100 : ℝ)) ^ 100 = u ^ 33 := by
    rw [← Real.rpow_natCast, ← Real.rpow_mul hu, ← Real.rpow_natCast]
    norm_num
  rw [← e] at h
  exact le_of_pow_le_pow_left₀ (n := 100) (by norm_num) (Real.rpow_nonneg hu _) h

theorem eight_le : (8 : ℝ) ^ (33 / 100 : ℝ) ≤ 2 := rpow33_le (by norm_num) (by norm_num) (by norm_num)
theorem eight_ge : (198 / 100 : ℝ) ≤ (8 : ℝ) ^ (33 / 100 : ℝ) :=
  le_rpow33 (by norm_num) (by norm_num)
theorem three_le : (3 : ℝ) ^ (33 / 100 : ℝ) ≤ 1437 / 1000 :=
  rpow33_le (by norm_num) (by norm_num) (by norm_num)
theorem three_ge : (1436 / 1000 : ℝ) ≤ (3 : ℝ) ^ (33 / 100 : ℝ) :=
  le_rpow33 (by norm_num) (by norm_num)

/-! ### the displacement vector -/

theorem kept_length (nodes : List ℝ) (ym : ℝ) :
    (nodes.filter (fun y => decide (y ≤ ym))).length ≤ nodes.length := List.length_filter_le _ _

theorem yVector_length {nodes : List ℝ} {ym : ℝ} {N : ℕ} {add : ℝ → ℝ} {draws : List ℝ}
    (hn : nodes.length ≤ N) (hd : N ≤ draws.length) :
    (yVector nodes ym N add draws).length = N := by
  unfold yVector
  have h := kept_length nodes ym
  simp only []
  rw [(Py.sortedBy_perm _ _).length_eq, List.length_append, List.length_map, List.length_take]
  omega

theorem mem_yVector {nodes : List ℝ} {ym : ℝ} {N : ℕ} {add : ℝ → ℝ} {draws : List ℝ} {y : ℝ} :
    y ∈ yVector nodes ym N add draws ↔ (y ∈ nodes ∧ y ≤ ym) ∨
      ∃ r ∈ draws.take (N - (nodes.filter (fun y => decide (y ≤ ym))).length), add r = y := by
  unfold yVector
  simp only []
  rw [(Py.sortedBy_perm _ _).mem_iff, List.mem_append, List.mem_filter, List.mem_map]
  simp

theorem yVector_sorted (nodes : List ℝ) (ym : ℝ) (N : ℕ) (add : ℝ → ℝ) (draws : List ℝ) :
    (yVector nodes ym N add draws).Pairwise (· ≤ ·) := by
  unfold yVector
  exact Py.sortedBy_pairwise id _

/-- A sorted list of non-negative numbers that contains zero starts with it. -/
theorem head_zero : ∀ {l : List ℝ}, l.Pairwise (· ≤ ·) → (0 : ℝ) ∈ l → (∀ y ∈ l, 0 ≤ y) →
    l.head? = some 0
  | [], _, h, _ => absurd h (by simp)
  | a :: l, hs, h, hn => by
    have ha := hn a (by simp)
    rcases List.mem_cons.1 h with h | h
    · simp [← h]
    · have := (List.pairwise_cons.1 hs).1 0 h
      simp [le_antisymm this ha]

theorem forall₂_mem_right {α β : Type} {R : α → β → Prop} : ∀ {l : List α} {r : List β},
    List.Forall₂ R l r → ∀ {b}, b ∈ r → ∃ a ∈ l, R a b
  | _, _, .nil, b, h => absurd h (by simp)
  | _, _, .cons h t, b, hb => by
    rcases List.mem_cons.1 hb with rfl | hb
    · exact ⟨_, by simp, h⟩
    · obtain ⟨a, ha, hr⟩ := forall₂_mem_right t hb
      exact ⟨a, List.mem_cons_of_mem _ ha, hr⟩

/-- The table made from the displacement vector and a resistance law. -/
theorem table_of {nodes : List ℝ} {ym : ℝ} {N : ℕ} {add : ℝ → ℝ} {draws : List ℝ} {P : ℝ → Option ℝ}
    {cap : ℝ} (hn : nodes.length ≤ N) (hd : N ≤ draws.length) (h0 : (0 : ℝ) ∈ nodes)
    (hnn : ∀ y ∈ nodes, 0 ≤ y) (hym : 0 ≤ ym) (hr : ∀ r ∈ draws, 0 ≤ add r)
    (hP : ∀ y, 0 ≤ y → ∃ p, P y = some p ∧ 0 ≤ p ∧ p ≤ cap) (hP0 : P 0 = some 0) :
    ∃ l, (yVector nodes ym N add draws).mapM (fun y => (P y).map (fun p => (y, p))) = some l ∧
      Table N cap l ∧ l.map Prod.fst = yVector nodes ym N add draws ∧
      (∀ q ∈ l, P q.1 = some q.2) := by
  have hall : ∀ y ∈ yVector nodes ym N add draws, 0 ≤ y := by
    intro y hy
    rcases mem_yVector.1 hy with h | ⟨r, h, rfl⟩
    · exact hnn y h.1
    · exact hr r (List.mem_of_mem_take h)
  have hs : ((yVector nodes ym N add draws).mapM
      (fun y => (P y).map (fun p => (y, p)))).isSome := by
    rw [Conic.mapM_isSome]
    intro y hy
    obtain ⟨p, h, _⟩ := hP y (hall y hy)
    simp [h]
  obtain ⟨l, hl⟩ := Option.isSome_iff_exists.1 hs
  have hf := Conic.mapM_forall₂ hl
  have hf' : List.Forall₂ (fun y (q : ℝ × ℝ) => y = q.1 ∧ P q.1 = some q.2)
      (yVector nodes ym N add draws) l := by
    refine hf.imp fun y q h => ?_
    simp only [Option.map_eq_some_iff] at h
    obtain ⟨p, hp, rfl⟩ := h
    exact ⟨rfl, hp⟩
  have hfst : l.map Prod.fst = yVector nodes ym N add draws := by
    have : List.Forall₂ (fun y (q : ℝ × ℝ) => y = q.1) (yVector nodes ym N add draws) l :=
      hf'.imp fun _ _ h => h.1
    have h2 := List.forall₂_map_right_iff (R := fun a b : ℝ => a = b) (f := Prod.fst)
      (l := yVector nodes ym N add draws) (u := l)
    exact (List.forall₂_eq_eq_eq ▸ h2.2 this : _ = _).symm
  have hpt : ∀ q ∈ l, P q.1 = some q.2 := by
    intro q hq
    obtain ⟨y, _, h⟩ := forall₂_mem_right hf' hq
    exact h.2
  have hq0 : ∀ q ∈ l, 0 ≤ q.1 := fun q hq => hall q.1 (hfst ▸ List.mem_map_of_mem hq)
  have hb : ∀ q ∈ l, 0 ≤ q.2 ∧ q.2 ≤ cap := by
    intro q hq
    obtain ⟨p, h, h1, h2⟩ := hP q.1 (hq0 q hq)
    rw [hpt q hq] at h
    simp only [Option.some.injEq] at h
    rw [h]; exact ⟨h1, h2⟩
  refine ⟨l, hl, ⟨?_, ?_, ?_, fun q hq => ⟨hq0 q hq, (hb q hq).1⟩, fun q hq => (hb q hq).2⟩,
    hfst, hpt⟩
  · rw [← yVector_length (ym := ym) (add := add) hn hd, hf'.length_eq]
  · have hh := head_zero (yVector_sorted nodes ym N add draws)
      (mem_yVector.2 (Or.inl ⟨h0, hym⟩)) hall
    rw [← hfst, List.head?_map] at hh
    cases e : l with
    | nil => rw [e] at hh; simp at hh
    | cons q t =>
      rw [e] at hh
      simp only [List.head?_cons, Option.map_some, Option.some.injEq] at hh
      have := hpt q (by rw [e]; simp)
      rw [hh, hP0] at this
      simp only [Option.some.injEq] at this
      simp only [List.head?_cons, Option.some.injEq]
      exact Prod.ext hh this.symm
  · have := yVector_sorted nodes ym N add draws
    rw [← hfst, List.pairwise_map] at this
    exact this

/-! ### the law -/

theorem pmaxClay_eq (sig X Su D J : ℝ) : pmaxClay sig X Su D J = clayUltimate sig X Su D J := by
  unfold pmaxClay clayUltimate clayDeep clayWedge
  congr 1; ring

theorem clayUltimate_nonneg {sig X Su D J : ℝ} (hs : 0 ≤ sig) (hX : 0 ≤ X) (hSu : 0 ≤ Su)
    (hD : 0 ≤ D) (hJ : 0 ≤ J) : 0 ≤ clayUltimate sig X Su D J := by
  unfold clayUltimate clayDeep clayWedge
  exact le_min (by positivity) (by positivity)

theorem transition_some {sig X Su D J : ℝ} (hs : 0 ≤ sig) (hX : 0 ≤ X) (hSu : 0 ≤ Su) (hD : 0 < D)
    (hJ : 0 < J) : ∃ Xr, transition sig X Su D J = some Xr ∧ 5 / 2 * D ≤ Xr := by
  unfold transition
  split_ifs with h1 h2
  · exact ⟨_, rfl, le_rfl⟩
  · have : 0 ≤ sig / X * D / Su := by positivity
    linarith
  · exact ⟨_, rfl, le_max_right _ _⟩

theorem cubic_some {pm q y : ℝ} (hq : 0 < q) (hy : 0 ≤ y) :
    cubic pm q y = some (pm * (y / q) ^ (33 / 100 : ℝ) / 2) := by
  unfold cubic
  have : 0 ≤ y / q := by positivity
  rw [if_neg (by rintro (h | h) <;> linarith)]
  congr 1; ring

theorem cubic_bound {pm q y a b : ℝ} (hpm : 0 ≤ pm) (hq : 0 < q) (hy : 0 ≤ y) (hya : y ≤ a * q)
    (hab : a ^ (33 / 100 : ℝ) ≤ b) :
    0 ≤ pm * (y / q) ^ (33 / 100 : ℝ) / 2 ∧ pm * (y / q) ^ (33 / 100 : ℝ) / 2 ≤ b / 2 * pm := by
  have h0 : 0 ≤ y / q := by positivity
  have h1 : (y / q) ^ (33 / 100 : ℝ) ≤ b :=
    (rpow33_mono h0 ((div_le_iff₀ hq).2 hya)).trans hab
  have h2 : 0 ≤ (y / q) ^ (33 / 100 : ℝ) := Real.rpow_nonneg h0 _
  constructor
  · positivity
  · nlinarith

end OpenPile.Lateral

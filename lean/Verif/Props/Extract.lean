/-
C41 (extracting springs is read-only), C42 (lumped springs conserve resistance) and C44 (shaft
resistance).
-/
import Verif.Model.Extract
import Mathlib.Algebra.BigOperators.Intervals
import Mathlib.Algebra.BigOperators.Ring.Finset
import Mathlib.Tactic.Linarith
import Mathlib.Tactic.Ring
import Mathlib.Tactic.FieldSimp
import Mathlib.Tactic.NormNum
import Mathlib.Tactic.IntervalCases

namespace OpenPile.Props.Extract
open OpenPile.Extract

section
variable {K : Type} [Field K] [LinearOrder K] [IsStrictOrderedRing K]

/-! ## Meshes -/

/-- Node elevations decrease from the head (node 0) to the tip (node `n`). -/
def Descending (z : ℕ → K) (n : ℕ) : Prop := ∀ i, i < n → z (i + 1) < z i

theorem gradient_inner {z : ℕ → K} {n i : ℕ} (hz : Descending z n) (h0 : 0 < i) (hn : i < n) :
    gradient z n i = (z (i - 1) - z (i + 1)) / 2 := by
  have h1 := hz i hn
  have h2 := hz (i - 1) (by omega)
  rw [Nat.sub_add_cancel h0] at h2
  unfold gradient
  rw [if_neg (by omega), if_neg (by omega), abs_of_neg (by linarith)]
  ring

theorem gradient_head {z : ℕ → K} {n : ℕ} (hz : Descending z n) (hn : 0 < n) :
    gradient z n 0 = z 0 - z 1 := by
  have := hz 0 hn
  unfold gradient
  rw [if_pos rfl, abs_of_neg (by simpa using this)]
  ring

theorem gradient_tip {z : ℕ → K} {n : ℕ} (hz : Descending z n) (hn : 0 < n) :
    gradient z n n = z (n - 1) - z n := by
  have := hz (n - 1) (by omega)
  rw [Nat.sub_add_cancel hn] at this
  unfold gradient
  rw [if_neg (by omega), if_pos rfl, abs_of_neg (by linarith)]
  ring

/-- Half the length of the element above the node plus half the length of the element below it. -/
def tributary (z : ℕ → K) (n i : ℕ) : K :=
  (if i = 0 then 0 else (z (i - 1) - z i) / 2) + (if i = n then 0 else (z i - z (i + 1)) / 2)

/-- **C42, tributary lengths.** The weights of the spring tables are the tributary lengths of the nodes. -/
theorem C42_influence {z : ℕ → K} {n : ℕ} (hz : Descending z n) (hn : 0 < n) {i : ℕ} (hi : i ≤ n) :
    influence z n i = tributary z n i := by
  unfold influence tributary
  by_cases h0 : i = 0
  · subst h0
    rw [if_pos (Or.inl rfl), gradient_head hz hn, if_pos rfl, if_neg (by omega)]
    ring
  · by_cases h1 : i = n
    · subst h1
      rw [if_pos (Or.inr rfl), gradient_tip hz hn, if_neg h0, if_pos rfl]
      ring
    · rw [if_neg (by omega), gradient_inner hz (by omega) (by omega), if_neg h0, if_neg h1]
      ring

theorem influence_pos {z : ℕ → K} {n : ℕ} (hz : Descending z n) (hn : 0 < n) {i : ℕ} (hi : i ≤ n) :
    0 < influence z n i := by
  rw [C42_influence hz hn hi]
  unfold tributary
  by_cases h0 : i = 0
  · have := hz 0 hn
    subst h0
    rw [if_pos rfl, if_neg (by omega)]
    simp only [zero_add] at this ⊢
    linarith
  · have h2 := hz (i - 1) (by omega)
    rw [Nat.sub_add_cancel (by omega)] at h2
    rw [if_neg h0]
    by_cases h1 : i = n
    · rw [if_pos h1]; linarith
    · have := hz i (by omega)
      rw [if_neg h1]; linarith

/-- **C42, sum.** The tributary lengths of all nodes sum to the length of the pile, whatever the mesh. -/
theorem C42_tributary {z : ℕ → K} {n : ℕ} (hz : Descending z n) (hn : 0 < n) :
    ∑ i ∈ Finset.range (n + 1), influence z n i = z 0 - z n := by
  have e : ∑ i ∈ Finset.range (n + 1), influence z n i
      = ∑ i ∈ Finset.range (n + 1), tributary z n i :=
    Finset.sum_congr rfl fun i hi => C42_influence hz hn (by simpa [Nat.lt_succ_iff] using hi)
  rw [e]
  unfold tributary
  rw [Finset.sum_add_distrib, Finset.sum_range_succ', Finset.sum_range_succ]
  simp only [Nat.add_eq_zero_iff, one_ne_zero, and_false, if_false, Nat.add_sub_cancel, if_true, add_zero]
  have e2 : ∑ i ∈ Finset.range n, (if i = n then (0 : K) else (z i - z (i + 1)) / 2)
      = ∑ i ∈ Finset.range n, (z i - z (i + 1)) / 2 :=
    Finset.sum_congr rfl fun i hi => if_neg (by have := Finset.mem_range.1 hi; omega)
  rw [e2, ← Finset.sum_add_distrib]
  have e3 : ∀ i ∈ Finset.range n, (z i - z (i + 1)) / 2 + (z i - z (i + 1)) / 2 = z i - z (i + 1) :=
    fun i _ => by ring
  rw [Finset.sum_congr rfl e3, Finset.sum_range_sub']

example : Descending (fun i : ℕ => (0 : ℚ) - i) 7 := by
  intro i _
  push_cast
  linarith

/-! ## C42: tables of a uniform soil -/

/-- All springs are the same curve. -/
def Uniform (s : Springs K) (n : ℕ) (c : Curve K) : Prop := ∀ i b, i < n → s i b = c

/-- **C42, "distributed" table.** In a uniform soil the row of every node is the curve of the soil with the
resistance multiplied by the tributary length: these are lumped springs, and they sum to resistance
times length. -/
theorem C42_distributed_partial {z : ℕ → K} {n : ℕ} (hz : Descending z n) (hn : 0 < n) {s : Springs K}
    {c : Curve K} (hs : Uniform s n c) {j : ℕ} (hj : j ≤ n) :
    distributedRow z n (weighted z n s) j = { c with r := c.r.map (· * tributary z n j) } := by
  unfold distributedRow
  by_cases h0 : j = 0
  · subst h0
    simp [weighted, hs 0 false hn, C42_influence hz hn (Nat.zero_le n)]
  · rw [if_neg h0]
    by_cases h1 : j = n
    · subst h1
      rw [if_pos rfl]
      simp [weighted, hs (j - 1) true (by omega), Nat.sub_add_cancel hn, C42_influence hz hn le_rfl]
    · rw [if_neg h1]
      have hp := influence_pos hz hn hj
      have hq := influence_pos hz hn (i := j - 1) (by omega)
      have hne : influence z n (j - 1) + influence z n j ≠ 0 := by linarith
      simp only [weighted, hs (j - 1) true (by omega), hs j false (by omega), if_true, combine,
        Nat.sub_add_cancel (show 1 ≤ j by omega), Bool.false_eq_true, if_false,
        ← C42_influence hz hn hj]
      congr 1
      · generalize c.r = l
        induction l with
        | nil => rfl
        | cons x xs ih =>
          simp only [List.map_cons, List.zipWith_cons_cons, List.cons.injEq]
          exact ⟨by field_simp, ih⟩
      · generalize c.d = l
        induction l with
        | nil => rfl
        | cons x xs ih =>
          simp only [List.map_cons, List.zipWith_cons_cons, List.cons.injEq]
          exact ⟨by field_simp, ih⟩

/-- **C42 is violated by the lumped table.** In a uniform soil the row of every inner node is the correct
one multiplied by the sum `w` of the tributary lengths of the node and its upper neighbour: resistances and
displacements alike.  It is correct only where that sum happens to be one metre. -/
theorem C42_violated_lumped {z : ℕ → K} {n : ℕ} (hz : Descending z n) {s : Springs K}
    {c : Curve K} (hs : Uniform s n c) {j : ℕ} (h0 : 0 < j) (hj : j < n) :
    let w := tributary z n (j - 1) + tributary z n j
    lumpedRow z n (weighted z n s) j =
        { r := c.r.map (· * (tributary z n j * w)), d := c.d.map (· * w) } ∧
      ((∃ x ∈ c.d, x ≠ 0) → (c.d.map (· * w) = c.d ↔ w = 1)) ∧
      ((∃ x ∈ c.r, x ≠ 0) → (c.r.map (· * (tributary z n j * w)) = c.r.map (· * tributary z n j) ↔
        w = 1)) := by
  intro w
  have hn : 0 < n := by omega
  have hp := influence_pos hz hn hj.le
  refine ⟨?_, ?_, ?_⟩
  · unfold lumpedRow
    rw [if_neg (by omega), if_neg (by omega)]
    simp only [weighted, hs (j - 1) true (by omega), hs j false (by omega), if_true, combine,
      Nat.sub_add_cancel (show 1 ≤ j by omega), Bool.false_eq_true, if_false, w,
      ← C42_influence hz hn hj.le, ← C42_influence hz hn (show j - 1 ≤ n by omega)]
    congr 1
    · generalize c.r = l
      induction l with
      | nil => rfl
      | cons x xs ih =>
        simp only [List.map_cons, List.zipWith_cons_cons, List.cons.injEq]
        exact ⟨by ring, ih⟩
    · generalize c.d = l
      induction l with
      | nil => rfl
      | cons x xs ih =>
        simp only [List.map_cons, List.zipWith_cons_cons, List.cons.injEq]
        exact ⟨by ring, ih⟩
  · rintro ⟨x, hx, hx0⟩
    constructor
    · intro h
      have h' : c.d.map (· * w) = c.d.map id := by rw [h, List.map_id]
      have := (List.map_inj_left.1 h') x hx
      exact mul_left_cancel₀ hx0 (by simpa using this)
    · intro h
      simp [h]
  · rintro ⟨x, hx, hx0⟩
    rw [C42_influence hz hn hj.le] at hp
    constructor
    · intro h
      have := (List.map_inj_left.1 h) x hx
      have h2 := mul_left_cancel₀ hx0 this
      exact mul_left_cancel₀ hp.ne' (by rw [h2, mul_one])
    · intro h
      simp [h]

/-- Ten elements of half a metre: the lumped table happens to be right.  Of one metre: everything at inner
nodes is doubled. -/
example : tributary (fun i : ℕ => (0 : ℚ) - i / 2) 10 4 + tributary (fun i : ℕ => (0 : ℚ) - i / 2) 10 5 = 1 ∧
    tributary (fun i : ℕ => (0 : ℚ) - i) 10 4 + tributary (fun i : ℕ => (0 : ℚ) - i) 10 5 = 2 := by
  unfold tributary
  norm_num

/-- **C42 is violated by the distributed table**: it is not per metre; at every node whose tributary length
is not one metre a non-zero resistance differs from that of the soil. -/
theorem C42_violated_distributed {z : ℕ → K} {n : ℕ} (hz : Descending z n) (hn : 0 < n) {s : Springs K}
    {c : Curve K} (hs : Uniform s n c) {j : ℕ} (hj : j ≤ n) (hw : tributary z n j ≠ 1)
    (hr : ∃ x ∈ c.r, x ≠ 0) : (distributedRow z n (weighted z n s) j).r ≠ c.r := by
  rw [C42_distributed_partial hz hn hs hj]
  intro h
  obtain ⟨x, hx, hx0⟩ := hr
  have h' : c.r.map (· * tributary z n j) = c.r.map id := by
    rw [List.map_id]
    exact h
  have := (List.map_inj_left.1 h') x hx
  exact hw (mul_left_cancel₀ hx0 (by simpa using this))

/-! ## C41: histories of queries -/

/-- Lateral tables. -/
def isLateral : Query → Bool
  | .lateral _ => true
  | _ => false

/-- Axial tables. -/
def isAxial : Query → Bool
  | .axial _ => true
  | _ => false

/-- The springs with all resistances multiplied by the `k`-th power of the influence of their node. -/
def scaled (z : ℕ → K) (n k : ℕ) (s : Springs K) : Springs K :=
  fun i b => { r := (s i b).r.map (· * influence z n (if b then i + 1 else i) ^ k), d := (s i b).d }

theorem scaled_zero (z : ℕ → K) (n : ℕ) (s : Springs K) : scaled z n 0 s = s := by
  funext i b
  simp [scaled]

theorem weighted_scaled (z : ℕ → K) (n k : ℕ) (s : Springs K) :
    weighted z n (scaled z n k s) = scaled z n (k + 1) s := by
  funext i b
  simp only [weighted, scaled, List.map_map, Function.comp_def]
  congr 1
  exact List.map_congr_left fun x _ => by ring

theorem scaled_weighted (z : ℕ → K) (n k : ℕ) (s : Springs K) :
    scaled z n k (weighted z n s) = scaled z n (k + 1) s := by
  funext i b
  simp only [weighted, scaled, List.map_map, Function.comp_def]
  congr 1
  exact List.map_congr_left fun x _ => by ring

/-- **C41 is violated: state after any history.** The p-y resistances have been multiplied by the
influence length of their node once for every lateral query in the history, the t-z resistances once for
every axial query; nothing else has changed. -/
theorem C41_violated_history (z : ℕ → K) (n : ℕ) (qs : List Query) (s : Store K) :
    (run z n qs s).1 = { s with
      py := scaled z n (qs.countP isLateral) s.py
      tz := scaled z n (qs.countP isAxial) s.tz } := by
  induction qs generalizing s with
  | nil => simp [run, scaled_zero]
  | cons q qs ih =>
    simp only [run, ih]
    cases q with
    | axial k =>
      rw [List.countP_cons_of_neg (by simp [isLateral]), List.countP_cons_of_pos (by simp [isAxial])]
      simp [query, scaled_weighted]
    | lateral k =>
      rw [List.countP_cons_of_pos (by simp [isLateral]), List.countP_cons_of_neg (by simp [isAxial])]
      simp [query, scaled_weighted]
    | rotational k => cases k <;> simp [query, isLateral, isAxial]
    | baseShear => simp [query, isLateral, isAxial]
    | baseAxial => simp [query, isLateral, isAxial]
    | baseRotational => simp [query, isLateral, isAxial]

/-- **C41, proved part.** No history changes a displacement, an m-t spring or a base spring; without lateral
(axial) queries the p-y (t-z) springs stay as they are. -/
theorem C41_readonly_partial (z : ℕ → K) (n : ℕ) (qs : List Query) (s : Store K) :
    let s' := (run z n qs s).1
    s'.mt = s.mt ∧ s'.hb = s.hb ∧ s'.mb = s.mb ∧ s'.qz = s.qz ∧
      (∀ i b, (s'.py i b).d = (s.py i b).d) ∧ (∀ i b, (s'.tz i b).d = (s.tz i b).d) ∧
      ((∀ k, Query.lateral k ∉ qs) → s'.py = s.py) ∧ ((∀ k, Query.axial k ∉ qs) → s'.tz = s.tz) := by
  intro s'
  have h : s' = _ := C41_violated_history z n qs s
  rw [h]
  refine ⟨rfl, rfl, rfl, rfl, fun _ _ => rfl, fun _ _ => rfl, fun hq => ?_, fun hq => ?_⟩
  · have : qs.countP isLateral = 0 := by
      rw [List.countP_eq_zero]
      intro q hm
      cases q with
      | lateral k => exact absurd hm (hq k)
      | _ => simp [isLateral]
    simp [this, scaled_zero]
  · have : qs.countP isAxial = 0 := by
      rw [List.countP_eq_zero]
      intro q hm
      cases q with
      | axial k => exact absurd hm (hq k)
      | _ => simp [isAxial]
    simp [this, scaled_zero]

/-- **C41, proved part.** Tables of m-t springs and of base springs are the same whenever they are asked
for: after any history as on the fresh Model. -/
theorem C41_tables_partial (z : ℕ → K) (n : ℕ) (qs : List Query) (s : Store K) {q : Query}
    (hl : isLateral q = false) (ha : isAxial q = false) :
    (query z n q (run z n qs s).1).2 = (query z n q s).2 := by
  rw [C41_violated_history]
  cases q with
  | axial k => simp [isAxial] at ha
  | lateral k => simp [isLateral] at hl
  | rotational k => cases k <;> rfl
  | baseShear => rfl
  | baseAxial => rfl
  | baseRotational => rfl

/-- **C41 is violated by every repeated lateral query** unless the springs at the pile head vanish or the
head element is two metres long (influence one): the table depends on how often it has been asked for. -/
theorem C41_violated_repeat {z : ℕ → K} {n : ℕ} (hz : Descending z n) (hn : 0 < n) (k : Kind)
    (qs : List Query) (hq : ∃ k, Query.lateral k ∈ qs) (s : Store K) (hr : ∃ x ∈ (s.py 0 false).r, x ≠ 0)
    (hw : z 0 - z 1 ≠ 2) :
    (query z n (.lateral k) (run z n qs s).1).2 ≠ (query z n (.lateral k) s).2 := by
  rw [C41_violated_history]
  simp only [query, weighted_scaled, ne_eq, Option.some.injEq, table]
  intro h
  rw [List.map_inj_left] at h
  have h0 := h 0 (by simp)
  have h0 : scaled z n (qs.countP isLateral + 1) s.py 0 false = weighted z n s.py 0 false := by
    cases k
    · simpa only [lumpedRow, if_true] using h0
    · simpa only [distributedRow, if_true] using h0
  have h1 := congrArg Curve.r h0
  simp only [scaled, weighted, Bool.false_eq_true, if_false] at h1
  obtain ⟨x, hx, hx0⟩ := hr
  have h2 := (List.map_inj_left.1 h1) x hx
  have h3 := mul_left_cancel₀ hx0 h2
  have hp := influence_pos hz hn (Nat.zero_le n)
  rw [pow_succ] at h3
  have h4 : influence z n 0 ^ (qs.countP isLateral) = 1 := by
    apply mul_right_cancel₀ hp.ne'
    rw [h3, one_mul]
  have hc : qs.countP isLateral ≠ 0 := by
    obtain ⟨k', hk'⟩ := hq
    intro hc
    exact absurd (List.countP_eq_zero.1 hc _ hk') (by simp [isLateral])
  have h5 : influence z n 0 = 1 := (pow_eq_one_iff_of_nonneg hp.le hc).1 h4
  apply hw
  unfold influence at h5
  rw [if_pos (Or.inl rfl), gradient_head hz hn] at h5
  linarith

/-- One-metre elements and a spring that resists at the head. -/
example : (0 : ℚ) - (0 : ℕ) - (0 - (1 : ℕ)) ≠ 2 ∧ (∃ k, Query.lateral k ∈ [Query.lateral .lumped]) ∧
    ∃ x ∈ [(0 : ℚ), 5], x ≠ 0 :=
  ⟨by norm_num, ⟨.lumped, by simp⟩, 5, by simp, by norm_num⟩

/-- **C41 is violated**: the table of distributed rotational springs can never be extracted. -/
theorem C41_violated_rotational (z : ℕ → K) (n : ℕ) (s : Store K) :
    (query z n (.rotational .distributed) s).2 = none := rfl

/-! ## C41: which tables are returned -/

/-- **C41, proved part.** The base tables are the base springs of the fresh Model, whatever has been asked for
before: base shear, base moment and end bearing are not mixed up. -/
theorem C41_base_partial (z : ℕ → K) (n : ℕ) (qs : List Query) (s : Store K) :
    (query z n .baseShear (run z n qs s).1).2 = some [s.hb] ∧
      (query z n .baseRotational (run z n qs s).1).2 = some [s.mb] ∧
      (query z n .baseAxial (run z n qs s).1).2 = some [s.qz] := by
  rw [C41_tables_partial z n qs s rfl rfl, C41_tables_partial z n qs s rfl rfl,
    C41_tables_partial z n qs s rfl rfl]
  exact ⟨rfl, rfl, rfl⟩

/-- Entry `k` of `l` is the largest of the entries `k` of the rows. -/
def LargestOf (rows : List (List K)) (l : List K) : Prop :=
  ∀ k : ℕ, ∀ x, l[k]? = some x → IsGreatest {y | ∃ r ∈ rows, r[k]? = some y} x

theorem foldMax_spec {L : ℕ} (rs : List (List K)) (r : List K) (hr : r.length = L)
    (hrs : ∀ q ∈ rs, q.length = L) :
    (rs.foldl (fun a b => List.zipWith max a b) r).length = L ∧
      LargestOf (r :: rs) (rs.foldl (fun a b => List.zipWith max a b) r) := by
  induction rs generalizing r with
  | nil =>
    refine ⟨hr, fun k x hx => ⟨⟨r, by simp, hx⟩, ?_⟩⟩
    rintro y ⟨q, hq, hy⟩
    rw [List.mem_singleton] at hq
    subst hq
    rw [List.foldl_nil, hy, Option.some.injEq] at hx
    exact hx.le
  | cons q rs ih =>
    have hq : q.length = L := hrs q (by simp)
    have hz : (List.zipWith max r q).length = L := by rw [List.length_zipWith, hr, hq, min_self]
    obtain ⟨h1, h2⟩ := ih (List.zipWith max r q) hz fun p hp => hrs p (by simp [hp])
    refine ⟨h1, fun k x hx => ?_⟩
    have hk : k < L := by
      rw [← h1]
      exact (List.getElem?_eq_some_iff.1 hx).1
    obtain ⟨⟨p, hp, hpx⟩, h4⟩ := h2 k x hx
    have ez : (List.zipWith max r q)[k]? = some (max (r[k]'(hr ▸ hk)) (q[k]'(hq ▸ hk))) := by
      rw [List.getElem?_eq_getElem (hz ▸ hk), List.getElem_zipWith]
    have er : r[k]? = some (r[k]'(hr ▸ hk)) := List.getElem?_eq_getElem _
    have eq' : q[k]? = some (q[k]'(hq ▸ hk)) := List.getElem?_eq_getElem _
    have hmax := h4 ⟨_, by simp, ez⟩
    constructor
    · rcases List.mem_cons.1 hp with rfl | hp
      · rw [ez, Option.some.injEq] at hpx
        rcases max_choice (r[k]'(hr ▸ hk)) (q[k]'(hq ▸ hk)) with h | h
        · exact ⟨r, by simp, by rw [er, ← h, hpx]⟩
        · exact ⟨q, by simp, by rw [eq', ← h, hpx]⟩
      · exact ⟨p, by simp [hp], hpx⟩
    · rintro y ⟨p', hp', hy⟩
      rcases List.mem_cons.1 hp' with rfl | hp'
      · rw [er, Option.some.injEq] at hy
        exact hy ▸ (le_max_left _ _).trans hmax
      · rcases List.mem_cons.1 hp' with rfl | hp'
        · rw [eq', Option.some.injEq] at hy
          exact hy ▸ (le_max_right _ _).trans hmax
        · exact h4 ⟨p', by simp [hp'], hy⟩

theorem maxRows_spec {L : ℕ} {rows : List (List K)} (hne : rows ≠ []) (h : ∀ r ∈ rows, r.length = L) :
    (maxRows rows).length = L ∧ LargestOf rows (maxRows rows) := by
  cases rows with
  | nil => exact absurd rfl hne
  | cons r rs => exact foldMax_spec rs r (h r (by simp)) fun q hq => h q (by simp [hq])

/-- **C41, proved part.** The lumped rotational table is the lumped table of springs whose moments (and
rotations) are the largest over all rows of the m-t spring, times the tributary length of the node, after any
history. -/
theorem C41_rotational_partial {z : ℕ → K} {n : ℕ} (hz : Descending z n) (hn : 0 < n) (qs : List Query)
    (s : Store K) {L : ℕ} (hm : ∀ i b, (s.mt i b).m ≠ [] ∧ ∀ r ∈ (s.mt i b).m, r.length = L)
    (ht : ∀ i b, (s.mt i b).t ≠ [] ∧ ∀ r ∈ (s.mt i b).t, r.length = L) :
    ∃ e : Springs K,
      (∀ i b, (e i b).r.length = L ∧ (e i b).d.length = L ∧ LargestOf (s.mt i b).m (e i b).r ∧
        LargestOf (s.mt i b).t (e i b).d) ∧
      ∃ t : List (Curve K), (query z n (.rotational .lumped) (run z n qs s).1).2 = some t ∧
        t.length = n + 1 ∧
        t[0]? = some ⟨(e 0 false).r.map (· * tributary z n 0), (e 0 false).d⟩ ∧
        t[n]? = some ⟨(e (n - 1) true).r.map (· * tributary z n n), (e (n - 1) true).d⟩ := by
  refine ⟨fun i b => ⟨maxRows (s.mt i b).m, maxRows (s.mt i b).t⟩, fun i b => ?_, ?_⟩
  · obtain ⟨h1, h2⟩ := maxRows_spec (hm i b).1 (hm i b).2
    obtain ⟨h3, h4⟩ := maxRows_spec (ht i b).1 (ht i b).2
    exact ⟨h1, h3, h2, h4⟩
  · rw [C41_tables_partial z n qs s rfl rfl]
    refine ⟨_, rfl, by simp [table], ?_, ?_⟩
    · simp only [table, List.getElem?_map, List.getElem?_range (Nat.succ_pos n), Option.map_some, lumpedRow,
        if_true, weighted, Bool.false_eq_true, if_false, C42_influence hz hn (Nat.zero_le n)]
    · simp only [table, List.getElem?_map, List.getElem?_range (Nat.lt_succ_self n), Option.map_some,
        lumpedRow, if_neg hn.ne', if_true, weighted, Nat.sub_add_cancel hn, C42_influence hz hn le_rfl]

/-- An m-t spring with two rows. -/
example : LargestOf (K := ℚ) [[1, 5], [2, 3]] [2, 5] :=
  (maxRows_spec (L := 2) (by simp) (by simp)).2

/-! ## C44: shaft resistance -/

theorem sumTerms_some {f : ℕ → Option K} {v : ℕ → K} {n : ℕ} (h : ∀ i, i < n → f i = some (v i)) :
    sumTerms f n = some (∑ i ∈ Finset.range n, v i) := by
  induction n with
  | zero => simp [sumTerms]
  | succ n ih =>
    simp [sumTerms, ih fun i hi => h i (by omega), h n (by omega), Finset.sum_range_succ]

/-- `t i` and `b i` are the smallest resistances of the springs at the top and at the bottom of element `i`
and `T i`, `B i` the largest. -/
structure Limits (tz : Springs K) (n : ℕ) (t b T B : ℕ → K) : Prop where
  tmin : ∀ i, i < n → rowMin (tz i false).r = some (t i)
  bmin : ∀ i, i < n → rowMin (tz i true).r = some (b i)
  tmax : ∀ i, i < n → rowMax (tz i false).r = some (T i)
  bmax : ∀ i, i < n → rowMax (tz i true).r = some (B i)

theorem shaft_eq {z : ℕ → K} {n : ℕ} {tz : Springs K} {t b T B : ℕ → K} (h : Limits tz n t b T B) :
    shaftResistance z n tz = some
      (∑ i ∈ Finset.range n, |t i * (gradient z n i / 2) + b i * (gradient z n (i + 1) / 2)|,
       ∑ i ∈ Finset.range n, |T i * (gradient z n i / 2) + B i * (gradient z n (i + 1) / 2)|) := by
  unfold shaftResistance
  rw [sumTerms_some (v := fun i => |t i * (gradient z n i / 2) + b i * (gradient z n (i + 1) / 2)|),
    sumTerms_some (v := fun i => |T i * (gradient z n i / 2) + B i * (gradient z n (i + 1) / 2)|)]
  · rfl
  · intro i hi
    simp [shaftTerm, h.tmax i hi, h.bmax i hi]
  · intro i hi
    simp [shaftTerm, h.tmin i hi, h.bmin i hi]

/-- Trapezoidal integral over the elements of a resistance `f i` at the top and `g i` at the bottom. -/
def trapezoid (z : ℕ → K) (n : ℕ) (f g : ℕ → K) : K :=
  ∑ i ∈ Finset.range n, (f i + g i) / 2 * (z i - z (i + 1))

theorem gradient_pos {z : ℕ → K} {n : ℕ} (hz : Descending z n) (hn : 0 < n) {i : ℕ} (hi : i ≤ n) :
    0 < gradient z n i := by
  have := influence_pos hz hn hi
  unfold influence at this
  split_ifs at this <;> linarith

/-- **C44 on meshes of equal elements.** For every table of t-z springs, embedded or not, with compressive
limits at most zero and tensile limits at least zero, the shaft resistances are the trapezoidal integrals of
the limits. -/
theorem C44_uniform_partial {z : ℕ → K} {n : ℕ} {l : K} (hl : 0 < l) (hz : ∀ i, i < n → z i - z (i + 1) = l)
    (hn : 0 < n) {tz : Springs K} {t b T B : ℕ → K} (h : Limits tz n t b T B)
    (ht : ∀ i, i < n → t i ≤ 0) (hb : ∀ i, i < n → b i ≤ 0)
    (hT : ∀ i, i < n → 0 ≤ T i) (hB : ∀ i, i < n → 0 ≤ B i) :
    shaftResistance z n tz =
      some (trapezoid z n (fun i => -t i) (fun i => -b i), trapezoid z n T B) := by
  have hd : Descending z n := fun i hi => by have := hz i hi; linarith
  have hg : ∀ i, i ≤ n → gradient z n i = l := by
    intro i hi
    by_cases h0 : i = 0
    · subst h0
      rw [gradient_head hd hn]
      exact hz 0 hn
    · have h1 := hz (i - 1) (by omega)
      rw [Nat.sub_add_cancel (by omega)] at h1
      by_cases h2 : i = n
      · subst h2
        rw [gradient_tip hd hn]
        exact h1
      · rw [gradient_inner hd (by omega) (by omega)]
        have h3 := hz i (by omega)
        linarith
  rw [shaft_eq h]
  congr 2
  · refine Finset.sum_congr rfl fun i hi => ?_
    have hi := Finset.mem_range.1 hi
    rw [hg i hi.le, hg (i + 1) hi, hz i hi, abs_of_nonpos]
    · ring
    · have := mul_nonneg (neg_nonneg.2 (ht i hi)) hl.le
      have := mul_nonneg (neg_nonneg.2 (hb i hi)) hl.le
      linarith
  · refine Finset.sum_congr rfl fun i hi => ?_
    have hi := Finset.mem_range.1 hi
    rw [hg i hi.le, hg (i + 1) hi, hz i hi, abs_of_nonneg]
    · ring
    · have := mul_nonneg (hT i hi) hl.le
      have := mul_nonneg (hB i hi) hl.le
      linarith

/-- Sum of the weights of the elements `k, ..., n - 1`. -/
theorem weights_from {z : ℕ → K} {n : ℕ} (hz : Descending z n) {k : ℕ} (hk : k < n) :
    ∑ i ∈ Finset.range n, (if i < k then 0 else gradient z n i / 2 + gradient z n (i + 1) / 2)
      = z k - z n + if k = 0 then 0 else ((z (k - 1) - z k) - (z k - z (k + 1))) / 4 := by
  have hn : 0 < n := by omega
  -- partial sums up to an inner node `m`
  have key : ∀ m, k < m → m < n →
      ∑ i ∈ Finset.range m, (if i < k then 0 else gradient z n i / 2 + gradient z n (i + 1) / 2)
        = z k - z m + ((z m - z (m + 1)) - (z (m - 1) - z m)) / 4
          + if k = 0 then 0 else ((z (k - 1) - z k) - (z k - z (k + 1))) / 4 := by
    intro m hkm hmn
    induction m with
    | zero => omega
    | succ m ih =>
      rw [Finset.sum_range_succ, if_neg (by omega), gradient_inner hz (show 0 < m + 1 by omega) hmn]
      by_cases hkm' : k = m
      · have hzero : ∑ i ∈ Finset.range m,
            (if i < k then (0 : K) else gradient z n i / 2 + gradient z n (i + 1) / 2) = 0 :=
          Finset.sum_eq_zero fun i hi => if_pos (by have := Finset.mem_range.1 hi; omega)
        rw [hzero, hkm']
        by_cases h0 : m = 0
        · subst h0
          rw [gradient_head hz hn, if_pos rfl]
          simp only [Nat.zero_add, Nat.sub_self]
          ring
        · rw [gradient_inner hz (by omega) (by omega), if_neg h0]
          simp only [Nat.add_sub_cancel]
          ring
      · rw [ih (by omega) (by omega), gradient_inner hz (by omega) (by omega)]
        simp only [Nat.add_sub_cancel]
        ring
  obtain ⟨m, rfl⟩ : ∃ m, n = m + 1 := ⟨n - 1, by omega⟩
  rw [Finset.sum_range_succ, if_neg (by omega), gradient_tip hz hn, Nat.add_sub_cancel]
  by_cases hkm : k = m
  · have hzero : ∑ i ∈ Finset.range m,
        (if i < k then (0 : K) else gradient z (m + 1) i / 2 + gradient z (m + 1) (i + 1) / 2) = 0 :=
      Finset.sum_eq_zero fun i hi => if_pos (by have := Finset.mem_range.1 hi; omega)
    rw [hzero, hkm]
    by_cases h0 : m = 0
    · subst h0
      rw [gradient_head hz hn, if_pos rfl]
      ring
    · rw [gradient_inner hz (by omega) (by omega), if_neg h0]
      ring
  · rw [key m (by omega) (by omega), gradient_inner hz (by omega) (by omega)]
    ring

/-- Constant limit friction `c` (compression) and `t` (tension) along the elements `k, ..., n - 1` and none
above them. -/
def ConstantFrom (tz : Springs K) (n k : ℕ) (c t : K) : Prop :=
  Limits tz n (fun i => if i < k then 0 else -c) (fun i => if i < k then 0 else -c)
    (fun i => if i < k then 0 else t) (fun i => if i < k then 0 else t)

/-- **C44 is violated for partially embedded piles.** With constant friction below node `k` the computed
resistance is friction times (embedded length plus a quarter of the difference in length of the elements
above and below ground). -/
theorem C44_violated_embedment {z : ℕ → K} {n k : ℕ} (hz : Descending z n) (hk : k < n) (hk0 : 0 < k)
    {tz : Springs K} {c t : K} (hc : 0 ≤ c) (ht : 0 ≤ t) (h : ConstantFrom tz n k c t) :
    let e := ((z (k - 1) - z k) - (z k - z (k + 1))) / 4
    shaftResistance z n tz = some (c * (z k - z n + e), t * (z k - z n + e)) ∧
      (c ≠ 0 → (shaftResistance z n tz = some (c * (z k - z n), t * (z k - z n)) ↔
        z (k - 1) - z k = z k - z (k + 1))) := by
  intro e
  have hn : 0 < n := by omega
  have hw := weights_from hz hk
  rw [if_neg hk0.ne'] at hw
  have main : shaftResistance z n tz = some (c * (z k - z n + e), t * (z k - z n + e)) := by
    rw [shaft_eq h, ← hw, Finset.mul_sum, Finset.mul_sum]
    congr 2
    · refine Finset.sum_congr rfl fun i hi => ?_
      have hi := Finset.mem_range.1 hi
      by_cases hik : i < k
      · simp [hik]
      · have h1 := gradient_pos hz hn hi.le
        have h2 := gradient_pos hz hn (i := i + 1) hi
        simp only [if_neg hik]
        rw [abs_of_nonpos]
        · ring
        · have := mul_nonneg hc h1.le
          have := mul_nonneg hc h2.le
          linarith
    · refine Finset.sum_congr rfl fun i hi => ?_
      have hi := Finset.mem_range.1 hi
      by_cases hik : i < k
      · simp [hik]
      · have h1 := gradient_pos hz hn hi.le
        have h2 := gradient_pos hz hn (i := i + 1) hi
        simp only [if_neg hik]
        rw [abs_of_nonneg]
        · ring
        · have := mul_nonneg ht h1.le
          have := mul_nonneg ht h2.le
          linarith
  refine ⟨main, fun hc0 => ?_⟩
  rw [main]
  simp only [Option.some.injEq, Prod.mk.injEq]
  constructor
  · rintro ⟨h1, -⟩
    have := mul_left_cancel₀ hc0 h1
    simp only [e] at this
    linarith
  · intro he
    simp only [e, he, sub_self, zero_div, add_zero, and_self]

/-- **C44 for fully embedded piles.** With constant friction along the whole pile the resistance is friction
times length on every mesh. -/
theorem C44_constant_partial {z : ℕ → K} {n : ℕ} (hz : Descending z n) (hn : 0 < n)
    {tz : Springs K} {c t : K} (hc : 0 ≤ c) (ht : 0 ≤ t) (h : ConstantFrom tz n 0 c t) :
    shaftResistance z n tz = some (c * (z 0 - z n), t * (z 0 - z n)) := by
  have hw := weights_from hz hn
  rw [if_pos rfl, add_zero] at hw
  rw [shaft_eq h, ← hw, Finset.mul_sum, Finset.mul_sum]
  congr 2
  · refine Finset.sum_congr rfl fun i hi => ?_
    have hi := Finset.mem_range.1 hi
    have h1 := gradient_pos hz hn hi.le
    have h2 := gradient_pos hz hn (i := i + 1) hi
    simp only [Nat.not_lt_zero, if_false]
    rw [abs_of_nonpos]
    · ring
    · have := mul_nonneg hc h1.le
      have := mul_nonneg hc h2.le
      linarith
  · refine Finset.sum_congr rfl fun i hi => ?_
    have hi := Finset.mem_range.1 hi
    have h1 := gradient_pos hz hn hi.le
    have h2 := gradient_pos hz hn (i := i + 1) hi
    simp only [Nat.not_lt_zero, if_false]
    rw [abs_of_nonneg]
    · ring
    · have := mul_nonneg ht h1.le
      have := mul_nonneg ht h2.le
      linarith

/-- A table with constant friction below node 2 of four: zero rows above, a symmetric curve below. -/
example : ConstantFrom (K := ℚ)
    (fun i _ => if i < 2 then ⟨[0, 0, 0], [0, 0, 0]⟩ else ⟨[-30, 0, 30], [-1, 0, 1]⟩) 4 2 30 30 := by
  refine ⟨?_, ?_, ?_, ?_⟩ <;> intro i hi <;> interval_cases i <;> decide +kernel

/-! ## C41 and C44 together -/

/-- A non-increasing change of the resistances: the smallest entry of a row multiplied by `w > 0`. -/
theorem rowMin_mul {l : List K} {m w : K} (hw : 0 < w) (h : rowMin l = some m) :
    rowMin (l.map (· * w)) = some (m * w) := by
  unfold rowMin at *
  rw [List.min?_eq_some_iff] at *
  refine ⟨List.mem_map.2 ⟨m, h.1, rfl⟩, fun b hb => ?_⟩
  obtain ⟨x, hx, rfl⟩ := List.mem_map.1 hb
  exact mul_le_mul_of_nonneg_right (h.2 x hx) hw.le

theorem rowMax_mul {l : List K} {m w : K} (hw : 0 < w) (h : rowMax l = some m) :
    rowMax (l.map (· * w)) = some (m * w) := by
  unfold rowMax at *
  rw [List.max?_eq_some_iff] at *
  refine ⟨List.mem_map.2 ⟨m, h.1, rfl⟩, fun b hb => ?_⟩
  obtain ⟨x, hx, rfl⟩ := List.mem_map.1 hb
  exact mul_le_mul_of_nonneg_right (h.2 x hx) hw.le

/-- **C41 is violated: capacities change.** On every mesh with influence lengths below one metre, looking
at the axial springs once makes the computed shaft resistance of a pile with constant friction smaller. -/
theorem C41_violated_capacity {z : ℕ → K} {n : ℕ} (hz : Descending z n) (hn : 0 < n)
    (hw : ∀ i, i ≤ n → tributary z n i < 1) (k : Kind) (s : Store K) {c t : K} (hc : 0 < c) (ht : 0 < t)
    (h : ConstantFrom s.tz n 0 c t) :
    ∃ c' t', shaftResistance z n (query z n (.axial k) s).1.tz = some (c', t') ∧
      shaftResistance z n s.tz = some (c * (z 0 - z n), t * (z 0 - z n)) ∧
      c' < c * (z 0 - z n) ∧ t' < t * (z 0 - z n) := by
  have hlim : Limits (weighted z n s.tz) n (fun i => -c * influence z n i)
      (fun i => -c * influence z n (i + 1)) (fun i => t * influence z n i)
      (fun i => t * influence z n (i + 1)) := by
    refine ⟨?_, ?_, ?_, ?_⟩ <;> intro i hi
    · simpa [weighted] using rowMin_mul (influence_pos hz hn hi.le) (h.tmin i hi)
    · simpa [weighted] using rowMin_mul (influence_pos hz hn (i := i + 1) hi) (h.bmin i hi)
    · simpa [weighted] using rowMax_mul (influence_pos hz hn hi.le) (h.tmax i hi)
    · simpa [weighted] using rowMax_mul (influence_pos hz hn (i := i + 1) hi) (h.bmax i hi)
  refine ⟨_, _, shaft_eq hlim, C44_constant_partial hz hn hc.le ht.le h, ?_, ?_⟩
  · have hwt := weights_from hz hn
    rw [if_pos rfl, add_zero] at hwt
    rw [← hwt, Finset.mul_sum]
    refine Finset.sum_lt_sum_of_nonempty ⟨0, Finset.mem_range.2 hn⟩ fun i hi => ?_
    have hi := Finset.mem_range.1 hi
    have g1 := gradient_pos hz hn hi.le
    have g2 := gradient_pos hz hn (i := i + 1) hi
    have p1 := influence_pos hz hn hi.le
    have p2 := influence_pos hz hn (i := i + 1) hi
    have w1 := hw i hi.le
    have w2 := hw (i + 1) hi
    rw [← C42_influence hz hn hi.le] at w1
    rw [← C42_influence hz hn (i := i + 1) hi] at w2
    have a1 := mul_pos hc (mul_pos p1 g1)
    have a2 := mul_pos hc (mul_pos p2 g2)
    have b1 := mul_pos hc (mul_pos (sub_pos.2 w1) g1)
    have b2 := mul_pos hc (mul_pos (sub_pos.2 w2) g2)
    simp only [Nat.not_lt_zero, if_false]
    rw [abs_of_nonpos (by linarith)]
    linarith
  · have hwt := weights_from hz hn
    rw [if_pos rfl, add_zero] at hwt
    rw [← hwt, Finset.mul_sum]
    refine Finset.sum_lt_sum_of_nonempty ⟨0, Finset.mem_range.2 hn⟩ fun i hi => ?_
    have hi := Finset.mem_range.1 hi
    have g1 := gradient_pos hz hn hi.le
    have g2 := gradient_pos hz hn (i := i + 1) hi
    have p1 := influence_pos hz hn hi.le
    have p2 := influence_pos hz hn (i := i + 1) hi
    have w1 := hw i hi.le
    have w2 := hw (i + 1) hi
    rw [← C42_influence hz hn hi.le] at w1
    rw [← C42_influence hz hn (i := i + 1) hi] at w2
    have a1 := mul_pos ht (mul_pos p1 g1)
    have a2 := mul_pos ht (mul_pos p2 g2)
    have b1 := mul_pos ht (mul_pos (sub_pos.2 w1) g1)
    have b2 := mul_pos ht (mul_pos (sub_pos.2 w2) g2)
    simp only [Nat.not_lt_zero, if_false]
    rw [abs_of_nonneg (by linarith)]
    linarith

/-- Elements of half a metre. -/
example : ∀ i, i ≤ 4 → tributary (fun i : ℕ => (0 : ℚ) - i / 2) 4 i < 1 := by
  intro i hi
  interval_cases i <;> (unfold tributary; norm_num)

end

end OpenPile.Props.Extract

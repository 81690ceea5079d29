import Verif.Spec.Mesh
import Verif.Lemmas.Pile
import Mathlib.Tactic.Linarith
import Mathlib.Tactic.Ring
import Mathlib.Tactic.FieldSimp
import Mathlib.Tactic.Positivity
import Mathlib.Data.List.Chain
import Mathlib.Data.List.Range

namespace OpenPile.Mesh
open OpenPile.Spec.Mesh

variable {K : Type} [Field K] [LinearOrder K] [IsStrictOrderedRing K] [FloorRing K]

/-! ### the while loop -/

omit [IsStrictOrderedRing K] [FloorRing K] in
theorem divLoop_spec (s c : K) (fuel d n : ℕ) (h : divLoop s c fuel d = some n) :
    d ≤ n ∧ s / n ≤ c ∧ ∀ m, d ≤ m → m < n → c < s / m := by
  induction fuel generalizing d with
  | zero => cases h
  | succ fuel ih =>
    unfold divLoop at h
    split at h
    · rename_i hgt
      obtain ⟨h1, h2, h3⟩ := ih (d + 1) h
      refine ⟨by omega, h2, fun m hm hmn => ?_⟩
      rcases Nat.lt_or_eq_of_le hm with hlt | rfl
      · exact h3 m hlt hmn
      · exact hgt
    · rename_i hle
      cases h
      exact ⟨le_rfl, not_lt.1 hle, fun m hm hmn => absurd hmn (not_lt.2 hm)⟩

omit [IsStrictOrderedRing K] [FloorRing K] in
theorem divLoop_isSome (s c : K) (fuel d N : ℕ) (hN : s / N ≤ c) (hd : d ≤ N) (hf : N < d + fuel) :
    ∃ n, divLoop s c fuel d = some n := by
  induction fuel generalizing d with
  | zero => omega
  | succ fuel ih =>
    unfold divLoop
    split
    · rename_i hgt
      rcases Nat.lt_or_eq_of_le hd with hlt | rfl
      · exact ih (d + 1) hlt (by omega)
      · exact absurd hgt (not_lt.2 hN)
    · exact ⟨d, rfl⟩

theorem divLoop_terminates (s c : K) (hs : 0 < s) (hc : 0 < c) :
    ∃ n, divLoop s c (fuelFor s c) 1 = some n := by
  have hpos : 0 < ⌈s / c⌉₊ := Nat.ceil_pos.2 (by positivity)
  refine divLoop_isSome s c _ 1 ⌈s / c⌉₊ ?_ hpos (by unfold fuelFor; omega)
  have h1 : s / c ≤ (⌈s / c⌉₊ : K) := Nat.le_ceil _
  have h2 : (0 : K) < (⌈s / c⌉₊ : K) := by exact_mod_cast hpos
  rw [div_le_iff₀ h2]
  rw [div_le_iff₀ hc] at h1
  linarith [mul_comm (⌈s / c⌉₊ : K) c]

/-! ### a direct description of the refined mesh -/

/-- Divider of a gap. -/
def dividerOf (c a b : K) : ℕ := (divLoop (a - b) c (fuelFor (a - b) c) 1).getD 1

/-- The refined mesh written gap by gap. -/
def refine (c : K) : List K → List K
  | a :: b :: l =>
    (List.range (dividerOf c a b)).map (fun k : ℕ => a - (k : K) * ((a - b) / dividerOf c a b)) ++
      refine c (b :: l)
  | l => l

theorem dividerOf_spec (c a b : K) (hc : 0 < c) (hab : b < a) :
    divLoop (a - b) c (fuelFor (a - b) c) 1 = some (dividerOf c a b) ∧ 1 ≤ dividerOf c a b ∧
    (a - b) / dividerOf c a b ≤ c ∧ ∀ m, 1 ≤ m → m < dividerOf c a b → c < (a - b) / m := by
  obtain ⟨n, hn⟩ := divLoop_terminates (a - b) c (by linarith) hc
  have : dividerOf c a b = n := by simp [dividerOf, hn]
  rw [this]
  obtain ⟨h1, h2, h3⟩ := divLoop_spec _ _ _ _ _ hn
  exact ⟨hn, h1, h2, h3⟩

/-- Relation between consecutive nodes of the refined mesh. -/
def Step (c : K) (L : List K) (x y : K) : Prop :=
  ∃ a b, [a, b] <:+: L ∧ ∃ k, k < dividerOf c a b ∧
    x = a - (k : K) * ((a - b) / dividerOf c a b) ∧
    y = a - ((k + 1 : ℕ) : K) * ((a - b) / dividerOf c a b)

theorem refine_head (c a : K) (l : List K) (hc : 0 < c) (hl : (a :: l).Pairwise (· > ·)) :
    (refine c (a :: l)).head? = some a := by
  cases l with
  | nil => rfl
  | cons b l =>
    have hab : b < a := (List.pairwise_cons.1 hl).1 b (by simp)
    have h1 := (dividerOf_spec c a b hc hab).2.1
    obtain ⟨n, hn⟩ : ∃ n, dividerOf c a b = n + 1 := ⟨dividerOf c a b - 1, by omega⟩
    simp [refine, hn, List.range_succ_eq_map]

theorem refine_chain (c : K) (L : List K) (hc : 0 < c) (hl : L.Pairwise (· > ·)) :
    (refine c L).IsChain (Step c L) := by
  induction L with
  | nil => simp [refine]
  | cons a L ih =>
    cases L with
    | nil => simp [refine]
    | cons b L =>
      have hab : b < a := (List.pairwise_cons.1 hl).1 b (by simp)
      have h1 := (dividerOf_spec c a b hc hab).2.1
      have hinf : [a, b] <:+: a :: b :: L := ⟨[], L, rfl⟩
      rw [refine, List.isChain_append]
      refine ⟨?_, ?_, ?_⟩
      · rw [List.isChain_map]
        obtain ⟨n, hn⟩ : ∃ n, dividerOf c a b = n + 1 := ⟨dividerOf c a b - 1, by omega⟩
        rw [hn, List.isChain_range_succ]
        intro m hm
        exact ⟨a, b, hinf, m, by omega, by rw [hn], by rw [hn]⟩
      · refine (ih (List.pairwise_cons.1 hl).2).imp ?_
        rintro x y ⟨a', b', h, rest⟩
        exact ⟨a', b', h.trans (List.suffix_cons _ _).isInfix, rest⟩
      · intro x hx y hy
        rw [Option.mem_def, refine_head c b L hc (List.pairwise_cons.1 hl).2] at hy
        cases hy
        obtain ⟨n, hn⟩ : ∃ n, dividerOf c a b = n + 1 := ⟨dividerOf c a b - 1, by omega⟩
        rw [hn, List.range_succ, List.map_append] at hx
        simp only [List.map_cons, List.map_nil, List.getLast?_append, List.getLast?_singleton,
          Option.some_or, Option.mem_def, Option.some.injEq] at hx
        refine ⟨a, b, hinf, n, by omega, by rw [hn]; exact hx.symm, ?_⟩
        rw [hn]
        have : ((n + 1 : ℕ) : K) ≠ 0 := by positivity
        field_simp
        ring

theorem step_lt (c : K) (L : List K) (hc : 0 < c) (hl : L.Pairwise (· > ·)) (x y : K)
    (h : Step c L x y) : y < x := by
  obtain ⟨a, b, hinf, k, hk, rfl, rfl⟩ := h
  have hab : b < a := by
    have := hl.sublist hinf.sublist
    simpa using this
  have h1 := (dividerOf_spec c a b hc hab).2.1
  have h2 : (0 : K) < dividerOf c a b := by exact_mod_cast h1
  have h3 : 0 < (a - b) / dividerOf c a b := div_pos (by linarith) h2
  push_cast
  nlinarith

theorem refine_pairwise (c : K) (L : List K) (hc : 0 < c) (hl : L.Pairwise (· > ·)) :
    (refine c L).Pairwise (· > ·) := by
  have h := (refine_chain c L hc hl).imp (fun {x y} h => step_lt c L hc hl x y h)
  exact List.isChain_iff_pairwise.1 h

theorem secondary_spec (c : K) (L : List K) (hc : 0 < c) (hl : L.Pairwise (· > ·)) :
    ∃ sec, secondary c L = some sec ∧ ∀ x, x ∈ L ++ sec ↔ x ∈ refine c L := by
  induction L with
  | nil => exact ⟨[], rfl, by simp [refine]⟩
  | cons a L ih =>
    cases L with
    | nil => exact ⟨[], rfl, by simp [refine]⟩
    | cons b L =>
      have hab : b < a := (List.pairwise_cons.1 hl).1 b (by simp)
      obtain ⟨hd, h1, _, _⟩ := dividerOf_spec c a b hc hab
      obtain ⟨sec, hs, hmem⟩ := ih (List.pairwise_cons.1 hl).2
      refine ⟨innerPoints a (a - b) (dividerOf c a b) ++ sec, ?_, ?_⟩
      · simp [secondary, hd, hs]
      · intro x
        have hm := hmem x
        obtain ⟨n, hn⟩ : ∃ n, dividerOf c a b = n + 1 := ⟨dividerOf c a b - 1, by omega⟩
        have e : (List.range (dividerOf c a b)).map
            (fun k : ℕ => a - (k : K) * ((a - b) / dividerOf c a b)) =
            a :: innerPoints a (a - b) (dividerOf c a b) := by
          rw [hn, innerPoints, List.range_succ_eq_map]
          simp
        rw [refine, e]
        simp only [List.cons_append, List.mem_cons, List.mem_append] at hm ⊢
        tauto

theorem mem_of_refine (c : K) (L : List K) (hc : 0 < c) (hl : L.Pairwise (· > ·)) (x : K)
    (hx : x ∈ L) : x ∈ refine c L := by
  obtain ⟨sec, _, hmem⟩ := secondary_spec c L hc hl
  exact (hmem x).1 (List.mem_append_left _ hx)

/-- The exact node list is the refined primary mesh. -/
theorem exactNodes_eq (p : Pile.Pile K) (soil : Option (Soil.Profile K)) (x2mesh : List K) (c pb : K)
    (hc : 0 < c) (hpb : p.bottomElevation = some pb) :
    exactNodes p soil x2mesh c = some (refine c (primary p pb soil x2mesh)) := by
  have hl : (primary p pb soil x2mesh).Pairwise (· > ·) := Py.uniqueDesc_pairwise _
  obtain ⟨sec, hs, hmem⟩ := secondary_spec c _ hc hl
  unfold exactNodes
  simp only [hpb, Option.bind_eq_bind, Option.bind_some, hs]
  have h2 := refine_pairwise c _ hc hl
  have : Py.uniqueDesc (primary p pb soil x2mesh ++ sec) = refine c (primary p pb soil x2mesh) := by
    have hp : (Py.uniqueDesc (primary p pb soil x2mesh ++ sec)).Perm
        (refine c (primary p pb soil x2mesh)) := by
      rw [List.perm_ext_iff_of_nodup ((Py.uniqueDesc_pairwise _).imp (fun h => ne_of_gt h))
        (h2.imp (fun h => ne_of_gt h))]
      intro x
      rw [Py.mem_uniqueDesc, hmem]
    refine hp.eq_of_pairwise ?_ (Py.uniqueDesc_pairwise _) h2
    intro a b _ _ hab hba
    exact absurd hab (not_lt.2 (le_of_lt hba))
  rw [this]
  rfl

omit [IsStrictOrderedRing K] [FloorRing K] in
theorem mem_primary (p : Pile.Pile K) (soil : Option (Soil.Profile K)) (x2mesh : List K) (pb z : K)
    (hpb : p.bottomElevation = some pb) :
    z ∈ primary p pb soil x2mesh ↔ Required p pb soil x2mesh z := by
  have hpbm : ∃ s ∈ p.sections, pb = s.bottom := by
    unfold Pile.Pile.bottomElevation at hpb
    cases hl : p.sections.getLast? with
    | none => rw [hl] at hpb; cases hpb
    | some s =>
      rw [hl] at hpb
      exact ⟨s, List.mem_of_getLast? hl, (Option.some.inj hpb).symm⟩
  unfold primary Required
  rw [Py.mem_uniqueDesc, List.mem_append, List.mem_append, or_assoc]
  have h1 : z ∈ pileElevations p ↔ ∃ s ∈ p.sections, z = s.top ∨ z = s.bottom := by
    simp [pileElevations]
  rw [h1]
  cases soil with
  | none => simp [soilElevations]
  | some sp =>
    have h2 : z ∈ soilElevations pb (some sp) ↔
        (∃ l ∈ sp.layers, (z = l.top ∨ z = l.bottom) ∧ pb ≤ z) ∨
        (z = pb ∧ ∃ l ∈ sp.layers, l.top < pb ∨ l.bottom < pb) := by
      have hmem : ∀ w, w ∈ sp.layers.map (·.top) ++ sp.layers.map (·.bottom) ↔
          ∃ l ∈ sp.layers, w = l.top ∨ w = l.bottom := by
        intro w
        simp only [List.mem_append, List.mem_map]
        constructor
        · rintro (⟨l, hl, rfl⟩ | ⟨l, hl, rfl⟩)
          · exact ⟨l, hl, Or.inl rfl⟩
          · exact ⟨l, hl, Or.inr rfl⟩
        · rintro ⟨l, hl, rfl | rfl⟩
          · exact Or.inl ⟨l, hl, rfl⟩
          · exact Or.inr ⟨l, hl, rfl⟩
      unfold soilElevations
      simp only
      split
      · rename_i hany
        rw [List.any_eq_true] at hany
        obtain ⟨w, hw, hwl⟩ := hany
        obtain ⟨l, hl, hlw⟩ := (hmem w).1 hw
        have hex : ∃ l ∈ sp.layers, l.top < pb ∨ l.bottom < pb := by
          refine ⟨l, hl, ?_⟩
          rcases hlw with rfl | rfl
          · exact Or.inl (by simpa using hwl)
          · exact Or.inr (by simpa using hwl)
        rw [List.mem_filter, List.mem_cons, hmem]
        simp only [ge_iff_le, decide_eq_true_eq]
        constructor
        · rintro ⟨rfl | ⟨l', hl', h'⟩, hz⟩
          · exact Or.inr ⟨rfl, hex⟩
          · exact Or.inl ⟨l', hl', h', hz⟩
        · rintro (⟨l', hl', h', hz⟩ | ⟨rfl, _⟩)
          · exact ⟨Or.inr ⟨l', hl', h'⟩, hz⟩
          · exact ⟨Or.inl rfl, le_rfl⟩
      · rename_i hany
        have hall : ∀ w, (∃ l ∈ sp.layers, w = l.top ∨ w = l.bottom) → pb ≤ w := by
          intro w hw
          by_contra hlt
          apply hany
          rw [List.any_eq_true]
          exact ⟨w, (hmem w).2 hw, by simpa using hlt⟩
        rw [hmem]
        constructor
        · rintro ⟨l, hl, h⟩
          exact Or.inl ⟨l, hl, h, hall z ⟨l, hl, h⟩⟩
        · rintro (⟨l, hl, h, _⟩ | ⟨rfl, l, hl, h⟩)
          · exact ⟨l, hl, h⟩
          · rcases h with h | h
            · exact absurd h (not_lt.2 (hall _ ⟨l, hl, Or.inl rfl⟩))
            · exact absurd h (not_lt.2 (hall _ ⟨l, hl, Or.inr rfl⟩))
    rw [h2]
    constructor
    · rintro (h | (⟨l, hl, h, h'⟩ | ⟨rfl, _⟩) | h)
      · exact Or.inl h
      · exact Or.inr (Or.inl ⟨sp, rfl, l, hl, h, h'⟩)
      · obtain ⟨s, hs, hsb⟩ := hpbm
        exact Or.inl ⟨s, hs, Or.inr hsb⟩
      · exact Or.inr (Or.inr h)
    · rintro (h | ⟨sp', hsp, l, hl, h, h'⟩ | h)
      · exact Or.inl h
      · cases hsp
        exact Or.inr (Or.inl (Or.inl ⟨l, hl, h, h'⟩))
      · exact Or.inr (Or.inr h)

/-! ### lists -/

omit [Field K] [IsStrictOrderedRing K] [FloorRing K] in
/-- Consecutive members of a strictly decreasing list have nothing of the list between them. -/
theorem neighbours_of_infix (L : List K) (hl : L.Pairwise (· > ·)) (a b : K) (h : [a, b] <:+: L) :
    a ∈ L ∧ b ∈ L ∧ b < a ∧ ∀ r ∈ L, ¬ (b < r ∧ r < a) := by
  obtain ⟨s, t, rfl⟩ := h
  have hl' := hl
  rw [List.append_assoc, List.pairwise_append] at hl
  obtain ⟨_, h2, h3⟩ := hl
  simp only [List.cons_append, List.nil_append, List.pairwise_cons] at h2
  refine ⟨by simp, by simp, h2.1 b (by simp), ?_⟩
  rintro r hr ⟨hbr, hra⟩
  simp only [List.append_assoc, List.cons_append, List.nil_append, List.mem_append,
    List.mem_cons] at hr
  rcases hr with hr | rfl | rfl | hr
  · exact absurd hra (not_lt.2 (le_of_lt (h3 r hr a (by simp))))
  · exact lt_irrefl _ hra
  · exact lt_irrefl _ hbr
  · exact absurd hbr (not_lt.2 (le_of_lt (h2.2.1 r hr)))

omit [Field K] [LinearOrder K] [IsStrictOrderedRing K] [FloorRing K] in
theorem pairs_infix (L : List K) (e : K × K) : e ∈ pairs L ↔ [e.1, e.2] <:+: L := by
  unfold pairs
  induction L with
  | nil => simp
  | cons a L ih =>
    cases L with
    | nil =>
      simp only [List.tail_cons, List.zip_nil_right, List.not_mem_nil, false_iff]
      intro h
      have := h.length_le
      simp at this
    | cons b L =>
      simp only [List.tail_cons, List.zip_cons_cons, List.mem_cons] at ih ⊢
      rw [List.infix_cons_iff, ih]
      constructor
      · rintro (rfl | h)
        · exact Or.inl ⟨L, rfl⟩
        · exact Or.inr h
      · rintro (⟨t, ht⟩ | h)
        · simp only [List.cons_append, List.nil_append, List.cons.injEq] at ht
          exact Or.inl (Prod.ext ht.1 ht.2.1)
        · exact Or.inr h

omit [Field K] [LinearOrder K] [IsStrictOrderedRing K] [FloorRing K] in
theorem isChain_of_infix {R : K → K → Prop} (L : List K) (h : L.IsChain R) (a b : K)
    (hi : [a, b] <:+: L) : R a b := by
  have := h.infix hi
  simpa using this

/-! ### rounding -/

theorem rint_bounds (x : K) : x - 1 / 2 ≤ (rint x : K) ∧ (rint x : K) ≤ x + 1 / 2 := by
  unfold rint
  have h1 := Int.floor_le x
  have h2 := Int.lt_floor_add_one x
  split
  · constructor <;> linarith
  · split
    · push_cast; constructor <;> linarith
    · split
      · constructor <;> linarith
      · push_cast; constructor <;> linarith

theorem rint_int (n : ℤ) : rint (n : K) = n := by
  unfold rint
  simp

theorem rint_mono (x y : K) (h : x ≤ y) : rint x ≤ rint y := by
  by_contra hlt
  push Not at hlt
  have hx := rint_bounds x
  have hy := rint_bounds y
  have h1 : (rint y : K) + 1 ≤ rint x := by exact_mod_cast hlt
  have e1 : x = y := by linarith [hx.2, hy.1]
  rw [e1] at hlt
  exact lt_irrefl _ hlt

theorem rint_strict (x y : K) (h : x + 1 < y) : rint x < rint y := by
  have hx := rint_bounds x
  have hy := rint_bounds y
  have : (rint x : K) < rint y := by linarith
  exact_mod_cast this

theorem round4_close (x : K) : |round4 x - x| ≤ 1 / 20000 := by
  have h := rint_bounds (x * 10000)
  unfold round4
  rw [abs_le]
  constructor
  · have : -(1 / 20000 : K) + x = (x * 10000 - 1 / 2) / 10000 := by ring
    have h2 : (x * 10000 - 1 / 2) / 10000 ≤ (rint (x * 10000) : K) / 10000 := by gcongr; exact h.1
    linarith
  · have : (1 / 20000 : K) + x = (x * 10000 + 1 / 2) / 10000 := by ring
    have h2 : (rint (x * 10000) : K) / 10000 ≤ (x * 10000 + 1 / 2) / 10000 := by gcongr; exact h.2
    linarith

theorem round4_mono (x y : K) (h : x ≤ y) : round4 x ≤ round4 y := by
  unfold round4
  have : (rint (x * 10000) : K) ≤ rint (y * 10000) := by
    exact_mod_cast rint_mono _ _ (by linarith)
  gcongr

theorem round4_strict (x y : K) (h : x + 1 / 10000 < y) : round4 x < round4 y := by
  unfold round4
  have : (rint (x * 10000) : K) < rint (y * 10000) := by
    exact_mod_cast rint_strict _ _ (by linarith)
  gcongr

theorem round4_grid (n : ℤ) : round4 ((n : K) / 10000) = n / 10000 := by
  unfold round4
  rw [div_mul_cancel₀ _ (by norm_num), rint_int]

/-! ### more lemmas for the properties -/

omit [IsStrictOrderedRing K] [FloorRing K] in
theorem divLoop_mono (s c : K) (fuel fuel' d n : ℕ) (h : divLoop s c fuel d = some n)
    (hf : fuel ≤ fuel') : divLoop s c fuel' d = some n := by
  induction fuel generalizing d fuel' with
  | zero => cases h
  | succ fuel ih =>
    obtain ⟨f, rfl⟩ : ∃ f, fuel' = f + 1 := ⟨fuel' - 1, by omega⟩
    unfold divLoop at h ⊢
    split at h
    · rename_i hgt
      rw [if_pos hgt]
      exact ih _ _ h (by omega)
    · rename_i hle
      rw [if_neg hle]
      exact h

theorem mem_refine_between (c : K) (L : List K) (hc : 0 < c) (hl : L.Pairwise (· > ·)) (x : K)
    (hx : x ∈ refine c L) : ∃ a ∈ L, ∃ b ∈ L, b ≤ x ∧ x ≤ a := by
  induction L with
  | nil => simp [refine] at hx
  | cons a L ih =>
    cases L with
    | nil =>
      simp only [refine, List.mem_cons, List.not_mem_nil, or_false] at hx
      exact ⟨a, by simp, a, by simp, hx.ge, hx.le⟩
    | cons b L =>
      have hab : b < a := (List.pairwise_cons.1 hl).1 b (by simp)
      have h1 := (dividerOf_spec c a b hc hab).2.1
      have hdpos : (0 : K) < dividerOf c a b := by exact_mod_cast h1
      rw [refine, List.mem_append] at hx
      rcases hx with hx | hx
      · obtain ⟨k, hk, rfl⟩ := List.mem_map.1 hx
        rw [List.mem_range] at hk
        have hs : 0 < (a - b) / dividerOf c a b := div_pos (by linarith) hdpos
        refine ⟨a, by simp, b, by simp, ?_, ?_⟩
        · have hk' : (k : K) ≤ dividerOf c a b := by exact_mod_cast hk.le
          have h3 : (k : K) * ((a - b) / dividerOf c a b) ≤ a - b := by
            calc _ ≤ (dividerOf c a b : K) * ((a - b) / dividerOf c a b) := by gcongr
              _ = a - b := by field_simp
          linarith
        · have : (0 : K) ≤ (k : K) * ((a - b) / dividerOf c a b) := by positivity
          linarith
      · obtain ⟨a', ha', b', hb', h⟩ := ih (List.pairwise_cons.1 hl).2 hx
        exact ⟨a', List.mem_cons_of_mem _ ha', b', List.mem_cons_of_mem _ hb', h⟩

omit [Field K] [LinearOrder K] [IsStrictOrderedRing K] [FloorRing K] in
theorem isChain_of_pairs {R : K → K → Prop} (L : List K) (h : ∀ e ∈ L.zip L.tail, R e.1 e.2) :
    L.IsChain R := by
  induction L with
  | nil => simp
  | cons a L ih =>
    cases L with
    | nil => simp
    | cons b L =>
      rw [List.isChain_cons_cons]
      exact ⟨h (a, b) (by simp), ih (fun e he => h e (by simp at he ⊢; exact Or.inr he))⟩

omit [IsStrictOrderedRing K] [FloorRing K] in
theorem parameterOf_of_filter {α β : Type} (top bottom : α → K) (key : α → β) (l : List α)
    (e : K × K) (s : α) (h : l.filter (fun o => decide (e.1 ≤ top o ∧ e.2 ≥ bottom o)) = [s]) :
    parameterOf top bottom key l e = some (key s) := by
  have gen : ∀ (l : List α) (acc : Option β),
      l.foldl (fun acc o => if e.1 ≤ top o ∧ e.2 ≥ bottom o then some (key o) else acc) acc =
      (l.filter (fun o => decide (e.1 ≤ top o ∧ e.2 ≥ bottom o))).foldl
        (fun _ o => some (key o)) acc := by
    intro l
    induction l with
    | nil => intro acc; rfl
    | cons o l ih =>
      intro acc
      rw [List.foldl_cons, ih, List.filter_cons]
      by_cases hc : e.1 ≤ top o ∧ e.2 ≥ bottom o
      · rw [if_pos hc, if_pos (by simpa using hc)]; rfl
      · rw [if_neg hc, if_neg (by simpa using hc)]
  unfold parameterOf
  rw [gen, h]
  rfl

omit [Field K] [IsStrictOrderedRing K] [FloorRing K] in
/-- In a stack of intervals, an interval that no boundary cuts and that lies within the stack is
contained in exactly one member. -/
theorem stack_unique {α : Type} (top bottom : α → K) (l : List α)
    (hb : ∀ s ∈ l, bottom s < top s) (hst : l.IsChain (fun u v => top v = bottom u))
    (e : K × K) (he : e.2 < e.1)
    (hcut : ∀ s ∈ l, ∀ t, (t = top s ∨ t = bottom s) → t ≤ e.2 ∨ e.1 ≤ t)
    (hfirst : ∀ f, l.head? = some f → e.1 ≤ top f)
    (hlast : ∀ f, l.getLast? = some f → bottom f ≤ e.2) (hne : l ≠ []) :
    ∃ s, l.filter (fun s => decide (e.1 ≤ top s ∧ e.2 ≥ bottom s)) = [s] := by
  induction l with
  | nil => exact absurd rfl hne
  | cons a l ih =>
    have ha := hfirst a rfl
    rw [List.filter_cons]
    cases l with
    | nil =>
      have := hlast a rfl
      exact ⟨a, by simp [ha, this]⟩
    | cons b l =>
      rw [List.isChain_cons_cons] at hst
      obtain ⟨hab, hst⟩ := hst
      rcases hcut a (by simp) (bottom a) (Or.inr rfl) with h | h
      · -- inside `a`; nothing below contains it
        refine ⟨a, ?_⟩
        have hempty : (b :: l).filter (fun s => decide (e.1 ≤ top s ∧ e.2 ≥ bottom s)) = [] := by
          have hbelow : ∀ (l : List α), l.IsChain (fun u v => top v = bottom u) →
              (∀ s ∈ l, bottom s < top s) → (∀ f, l.head? = some f → top f < e.1) →
              l.filter (fun s => decide (e.1 ≤ top s ∧ e.2 ≥ bottom s)) = [] := by
            intro l
            induction l with
            | nil => intros; rfl
            | cons c l ih =>
              intro h1 h2 h3
              have h4 := h3 c rfl
              rw [List.filter_cons, if_neg (by simp [not_le.2 h4])]
              refine ih h1.tail (fun s hs => h2 s (List.mem_cons_of_mem _ hs)) ?_
              intro f hf
              cases l with
              | nil => cases hf
              | cons d l =>
                cases hf
                rw [List.isChain_cons_cons] at h1
                rw [h1.1]
                exact (h2 c (by simp)).trans h4
          refine hbelow (b :: l) hst (fun s hs => hb s (List.mem_cons_of_mem _ hs)) ?_
          intro f hf
          cases hf
          rw [hab]
          exact lt_of_le_of_lt h he
        rw [hempty]
        simp [ha, h]
      · -- below `a`
        have hn : ¬ (e.2 ≥ bottom a) := not_le.2 (lt_of_lt_of_le he h)
        obtain ⟨s, hs⟩ := ih (fun s hs => hb s (List.mem_cons_of_mem _ hs)) hst
          (fun s hs => hcut s (List.mem_cons_of_mem _ hs))
          (by intro f hf; cases hf; rw [hab]; exact h)
          (by
            intro f hf
            exact hlast f (by simpa [List.getLast?_cons_cons] using hf))
          (by simp)
        exact ⟨s, by rw [if_neg (by simp [hn])]; exact hs⟩

omit [IsStrictOrderedRing K] [FloorRing K] in
theorem mkPile_sections (sections : List (Pile.Section K)) (mat : Pile.Material K)
    (p : Pile.Pile K) (hp : Pile.mkPile sections mat = .ok p) :
    p.sections.IsChain (fun u v => v.top = u.bottom) ∧ ∀ s, s ∈ p.sections ↔ s ∈ sections := by
  unfold Pile.mkPile at hp
  split at hp
  · cases hp
  · simp only at hp
    split at hp
    · rename_i h
      cases hp
      exact ⟨(Pile.connected_iff _).1 h, fun s => (Pile.sortSections_perm sections).mem_iff⟩
    · cases hp

omit [IsStrictOrderedRing K] [FloorRing K] in
theorem stack_bounds (l : List (Pile.Section K)) (hb : ∀ s ∈ l, s.bottom < s.top)
    (hst : l.IsChain (fun u v => v.top = u.bottom)) (s : Pile.Section K) (hs : s ∈ l) :
    ∃ f, l.head? = some f ∧ ∃ g, l.getLast? = some g ∧ s.top ≤ f.top ∧ g.bottom ≤ s.bottom := by
  induction l generalizing s with
  | nil => cases hs
  | cons a l ih =>
    cases l with
    | nil =>
      simp only [List.mem_cons, List.not_mem_nil, or_false] at hs
      subst hs
      exact ⟨s, rfl, s, rfl, le_rfl, le_rfl⟩
    | cons b l =>
      rw [List.isChain_cons_cons] at hst
      have hb' : ∀ s ∈ b :: l, s.bottom < s.top := fun s hs => hb s (List.mem_cons_of_mem _ hs)
      have hab := hb a (by simp)
      rcases List.mem_cons.1 hs with rfl | hs
      · obtain ⟨f, hf, g, hg, h1, h2⟩ := ih hb' hst.2 b List.mem_cons_self
        refine ⟨s, rfl, g, by rw [List.getLast?_cons_cons]; exact hg, le_rfl, ?_⟩
        have := hb' b (by simp)
        rw [hst.1] at this
        exact h2.trans this.le
      · obtain ⟨f, hf, g, hg, h1, h2⟩ := ih hb' hst.2 s hs
        cases hf
        refine ⟨a, rfl, g, by rw [List.getLast?_cons_cons]; exact hg, ?_, h2⟩
        rw [hst.1] at h1
        exact h1.trans hab.le

omit [Field K] [IsStrictOrderedRing K] [FloorRing K] in
theorem head_eq_max (l : List K) (h : l.Pairwise (· > ·)) (t : K) (ht : t ∈ l)
    (hm : ∀ x ∈ l, x ≤ t) : l.head? = some t := by
  cases l with
  | nil => cases ht
  | cons a l =>
    rcases List.mem_cons.1 ht with rfl | h'
    · rfl
    · exact absurd ((List.pairwise_cons.1 h).1 t h') (not_lt.2 (hm a (by simp)))

omit [Field K] [IsStrictOrderedRing K] [FloorRing K] in
theorem last_eq_min (l : List K) (h : l.Pairwise (· > ·)) (t : K) (ht : t ∈ l)
    (hm : ∀ x ∈ l, t ≤ x) : l.getLast? = some t := by
  rcases List.eq_nil_or_concat l with rfl | ⟨l', a, rfl⟩
  · cases ht
  · rw [List.concat_eq_append] at *
    rw [List.getLast?_concat]
    rcases List.mem_append.1 ht with h' | h'
    · have := (List.pairwise_append.1 h).2.2 t h' a (by simp)
      exact absurd this (not_lt.2 (hm a (by simp)))
    · simp only [List.mem_cons, List.not_mem_nil, or_false] at h'
      rw [h']

/-- No on-grid required elevation lies strictly inside a published element. -/
theorem published_no_straddle (p : Pile.Pile K) (soil : Option (Soil.Profile K)) (x2mesh : List K)
    (c tip : K) (hc : 0 < c) (htip : p.bottomElevation = some tip) (C : Coordinates K)
    (hC : getCoordinates p soil x2mesh c = some C) (e : K × K) (he : e ∈ C.elements) (t : K)
    (ht : Required p tip soil x2mesh t) (hg : OnGrid t) : t ≤ e.2 ∨ e.1 ≤ t := by
  have hz := exactNodes_eq p soil x2mesh c tip hc htip
  have hl : (primary p tip soil x2mesh).Pairwise (· > ·) := Py.uniqueDesc_pairwise _
  simp only [getCoordinates, hz, Option.bind_eq_bind, Option.bind_some, Option.pure_def,
    Option.some.injEq] at hC
  rw [← hC] at he
  obtain ⟨⟨x, y⟩, hxy, rfl⟩ := List.mem_map.1 he
  have hinf := (pairs_infix _ _).1 hxy
  have hno := (neighbours_of_infix _ (refine_pairwise c _ hc hl) x y hinf).2.2.2 t
    (mem_of_refine c _ hc hl t ((mem_primary p soil x2mesh tip t htip).2 ht))
  have hr : round4 t = t := by
    obtain ⟨n, rfl⟩ := hg
    exact round4_grid n
  rcases le_or_gt t y with h | h
  · left
    have := round4_mono _ _ h
    rwa [hr] at this
  · right
    have h2 : x ≤ t := by
      by_contra hcon
      exact hno ⟨h, not_le.1 hcon⟩
    have := round4_mono _ _ h2
    rwa [hr] at this

end OpenPile.Mesh

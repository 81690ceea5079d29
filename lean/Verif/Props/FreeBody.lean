/-
Property C80: the section forces are the resultants of what acts on the pile above the section.
-/
import Verif.Props.Reported
import Verif.Props.BalanceSupports

namespace OpenPile.Props.FreeBody
open OpenPile.Kernel OpenPile.Winkler OpenPile.Spring OpenPile.Spec.Kernel OpenPile.Props.SoilStiffness
open OpenPile.Props.Winkler OpenPile.Props.Beam OpenPile.Props.Balance Matrix

/-! ### in the tables of an analysis without soil -/

section tables
open OpenPile.BC OpenPile.Mesh OpenPile.Analysis OpenPile.Result OpenPile.Props.Analysis OpenPile.Props.Reported
  OpenPile.Props.Refine

variable {K : Type} [Field K] [LinearOrder K] [IsStrictOrderedRing K] [FloorRing K]

/-- Load of `global_forces` at node `k` in one of its columns. -/
def load (l : List ℤ) (k : ℕ) : K := ((l.getD k 0 : ℤ) : K)

/-- Elevation of node `k`. -/
def elev (C : Coordinates K) (k : ℕ) : K := C.nodes.getD k 0

/-- Loads and listed reactions on the nodes `0 .. i`: axial, lateral, and moment about the elevation `e0`. -/
def resultant (C : Coordinates K) (g : Nodal ℤ) (T : Tables K) (i : ℕ) (e0 : K) : K × K × K :=
  (∑ k ∈ Finset.range (i + 1), (load g.z k + listed T (elev C k) 0),
   ∑ k ∈ Finset.range (i + 1), (load g.y k + listed T (elev C k) 1),
   ∑ k ∈ Finset.range (i + 1), ((load g.x k + listed T (elev C k) 2)
     - (elev C k - e0) * (load g.y k + listed T (elev C k) 1)))

/-- Loads alone on the nodes `0 .. i`. -/
def loadsAbove (C : Coordinates K) (g : Nodal ℤ) (i : ℕ) (e0 : K) : K × K × K :=
  (∑ k ∈ Finset.range (i + 1), load g.z k, ∑ k ∈ Finset.range (i + 1), load g.y k,
   ∑ k ∈ Finset.range (i + 1), (load g.x k - (elev C k - e0) * load g.y k))

omit [LinearOrder K] [IsStrictOrderedRing K] [FloorRing K] in
/-- What is below the nodes `0 .. i` of a chain of elements, from what is added at each node. -/
theorem cut (e : ℕ → K) (a b r : ℕ → K × K × K) (m : ℕ) (h0 : a 0 = 0) (hb : ∀ i ≤ m, b i = a i + r i)
    (ha : ∀ i < m, a (i + 1) = ((b i).1, (b i).2.1, (b i).2.2 - (b i).2.1 * (e i - e (i + 1)))) :
    ∀ i ≤ m, b i = (∑ k ∈ Finset.range (i + 1), (r k).1, ∑ k ∈ Finset.range (i + 1), (r k).2.1,
      ∑ k ∈ Finset.range (i + 1), ((r k).2.2 - (e k - e i) * (r k).2.1)) := by
  intro i
  induction i with
  | zero =>
    intro _
    rw [hb 0 (Nat.zero_le _), h0]
    simp
  | succ i ih =>
    intro hi
    have hi' := ih (by omega)
    rw [hb (i + 1) hi, ha i (by omega), hi']
    refine Prod.ext ?_ (Prod.ext ?_ ?_)
    · simp only [Prod.fst_add]
      rw [Finset.sum_range_succ _ (i + 1)]
    · simp only [Prod.fst_add, Prod.snd_add]
      rw [Finset.sum_range_succ _ (i + 1)]
    · simp only [Prod.snd_add]
      rw [Finset.sum_range_succ _ (i + 1), sub_self, zero_mul, sub_zero, Finset.sum_mul, ← Finset.sum_sub_distrib]
      congr 1
      refine Finset.sum_congr rfl (fun k _ => ?_)
      ring

omit [FloorRing K] in
theorem sum_close (m : ℕ) (f g c : ℕ → K) (h : ∀ k < m, |f k - g k| ≤ c k) :
    |∑ k ∈ Finset.range m, f k - ∑ k ∈ Finset.range m, g k| ≤ ∑ k ∈ Finset.range m, c k := by
  rw [← Finset.sum_sub_distrib]
  exact (Finset.abs_sum_le_sum_abs _ _).trans (Finset.sum_le_sum (fun k hk => h k (Finset.mem_range.1 hk)))

/-- **C80, from the tables.** Without soil: in an element from elevation `e` to `e'` the listed `N` and `V` are the axial
and lateral resultants of all loads and listed reactions on the nodes above, and the moments are their moments about `e` and
`e'`, up to the 1/1000 per reaction that the table of reactions leaves out; if no node above is held they are exactly the
resultants of the loads. -/
theorem C80_tables (pi : K) (ty : ElementType) (p : Pile.Pile K) (top tip : K) (hp : Stack p top tip)
    (hreg : ∀ s ∈ p.sections, ∀ L : K, 0 < L → Regular ty (elemOf pi p.material s L)) (C : Coordinates K)
    (h : MeshOn p top tip C) (bcs : List (Cond K)) (T : Tables K) (hT : solveOn pi ty p C bcs = some T) :
    ∃ g, globalForces C.nodes bcs = .ok g ∧ ∀ i e e', C.nodes[i]? = some e → C.nodes[i + 1]? = some e' →
      ∃ N V M M' : K, T.forces[2 * i]? = some (e, N, V, M) ∧ T.forces[2 * i + 1]? = some (e', N, V, M') ∧
        |N - (resultant C g T i e).1| ≤ (i + 1) / 1000 ∧ |V - (resultant C g T i e).2.1| ≤ (i + 1) / 1000 ∧
        |M - (resultant C g T i e).2.2| ≤ ∑ k ∈ Finset.range (i + 1), (1 + (elev C k - e)) / 1000 ∧
        |M' - (resultant C g T i e').2.2| ≤ ∑ k ∈ Finset.range (i + 1), (1 + (elev C k - e')) / 1000 ∧
        ((∀ k ≤ i, ∀ a, Free C.nodes bcs a k) →
          (N, V, M) = loadsAbove C g i e ∧ (N, V, M') = loadsAbove C g i e') := by
  obtain ⟨hlen, hel, g, hg, hj⟩ := C22_tables pi ty p top tip hp hreg C h bcs T hT
  refine ⟨g, hg, fun i e e' he he' => ?_⟩
  have hl : ∀ a, (g.get a).length = C.nodes.length := by
    obtain ⟨n, z, el, F, U, R, u, Q, f, g', gU, gR, n1, hz, hanti, hel', hg', -, -, hF, -⟩ :=
      solveOn_some pi ty hp h bcs T hT
    rw [hg'] at hg
    cases hg
    intro a
    have key : ∀ d, (g.get (axisOf d)).length = C.nodes.length := by
      intro d
      have := congrArg List.length (hF d)
      rw [List.length_map, List.length_ofFn] at this
      rw [this, hz, List.length_ofFn]
    cases a
    · exact key 2
    · exact key 1
    · exact key 0
  obtain ⟨hi1, -⟩ := List.getElem?_eq_some_iff.1 he'
  have hnode : ∀ k ≤ i + 1, C.nodes[k]? = some (elev C k) := by
    intro k hk
    unfold elev
    rw [List.getD_eq_getElem?_getD, List.getElem?_eq_getElem (by omega)]
    rfl
  have hload : ∀ k ≤ i, ∀ a, (g.get a)[k]? = some ((g.get a).getD k 0) := by
    intro k hk a
    have := hl a
    rw [List.getD_eq_getElem?_getD, List.getElem?_eq_getElem (by omega)]
    rfl
  have hee : elev C i = e := by
    have := hnode i (by omega)
    rw [he] at this
    exact (Option.some.inj this).symm
  have hee' : elev C (i + 1) = e' := by
    have := hnode (i + 1) le_rfl
    rw [he'] at this
    exact (Option.some.inj this).symm
  have hdown : ∀ k ≤ i, e ≤ elev C k := by
    intro k hk
    rcases hk.lt_or_eq with hlt | rfl
    · have hd := List.pairwise_iff_getElem.1 h.dec k i (by omega) (by omega) hlt
      have e1 := hnode k (by omega)
      rw [List.getElem?_eq_getElem (by omega)] at e1
      have e2 := he
      rw [List.getElem?_eq_getElem (by omega)] at e2
      rw [Option.some.inj e1, Option.some.inj e2] at hd
      exact hd.le
    · exact hee.ge
  have hlast : e' < e := by
    have hd := List.pairwise_iff_getElem.1 h.dec i (i + 1) (by omega) (by omega) (by omega)
    have e1 := he'
    rw [List.getElem?_eq_getElem (by omega)] at e1
    have e2 := he
    rw [List.getElem?_eq_getElem (by omega)] at e2
    rw [Option.some.inj e1, Option.some.inj e2] at hd
    exact hd
  -- what is added at each node
  let r : ℕ → K × K × K := fun k => below T k - above T k
  have hcut := cut (elev C) (above T) (below T) r i rfl (fun k _ => by simp [r]) (by
    intro k hk
    obtain ⟨N, V, M, M', h1, h2, h3⟩ := hel k _ _ (hnode k (by omega)) (hnode (k + 1) (by omega))
    have hb : below T k = (N, V, M) := by
      unfold below
      rw [h1]
      rfl
    rw [hb]
    show ((T.forces[2 * k + 1]?).map (·.2)).getD 0 = _
    rw [h2]
    simp only [Option.map_some, Option.getD_some, Prod.mk.injEq, true_and]
    linear_combination -h3) i le_rfl
  have hnear := fun k (hk : k ≤ i) => hj k (elev C k) _ _ _ (hnode k (by omega)) (hload k hk .z) (hload k hk .y)
    (hload k hk .x)
  obtain ⟨N, V, M, M', h1, h2, h3⟩ := hel i e e' he he'
  have hb : below T i = (N, V, M) := by
    unfold below
    rw [h1]
    rfl
  rw [hb] at hcut
  simp only [Prod.mk.injEq] at hcut
  obtain ⟨c1, c2, c3⟩ := hcut
  have c4 : M' = ∑ k ∈ Finset.range (i + 1), ((r k).2.2 - (elev C k - e') * (r k).2.1) := by
    have : M' = M - V * (e - e') := by linear_combination -h3
    rw [this, c3, c2, Finset.sum_mul, ← Finset.sum_sub_distrib]
    refine Finset.sum_congr rfl (fun k _ => ?_)
    rw [hee]
    ring
  rw [hee] at c3
  have moment : ∀ e0 : K, (∀ k ≤ i, e0 ≤ elev C k) →
      |∑ k ∈ Finset.range (i + 1), ((r k).2.2 - (elev C k - e0) * (r k).2.1) - (resultant C g T i e0).2.2|
        ≤ ∑ k ∈ Finset.range (i + 1), (1 + (elev C k - e0)) / 1000 := by
    intro e0 h0
    refine sum_close _ _ _ _ (fun k hk => ?_)
    obtain ⟨-, n1, n2, -⟩ := hnear k (by omega)
    have hpos := sub_nonneg.2 (h0 k (by omega))
    have e1 : (r k).2.2 - (elev C k - e0) * (r k).2.1
        - (load g.x k + listed T (elev C k) 2 - (elev C k - e0) * (load g.y k + listed T (elev C k) 1))
        = ((r k).2.2 - load g.x k - listed T (elev C k) 2)
          - (elev C k - e0) * ((r k).2.1 - load g.y k - listed T (elev C k) 1) := by ring
    rw [e1]
    refine (abs_sub _ _).trans ?_
    rw [abs_mul, abs_of_nonneg hpos]
    have m1 := mul_le_mul_of_nonneg_left n1 hpos
    calc _ ≤ 1 / 1000 + (elev C k - e0) * (1 / 1000) := add_le_add n2 m1
      _ = _ := by ring
  have hsum : ∑ k ∈ Finset.range (i + 1), (1 / 1000 : K) = (i + 1) / 1000 := by
    rw [Finset.sum_const, Finset.card_range, nsmul_eq_mul]
    push_cast
    ring
  refine ⟨N, V, M, M', h1, h2, ?_, ?_, ?_, ?_, ?_⟩
  · rw [c1, ← hsum]
    refine sum_close _ _ _ _ (fun k hk => ?_)
    have := (hnear k (by omega)).1
    rw [sub_sub] at this
    exact this
  · rw [c2, ← hsum]
    refine sum_close _ _ _ _ (fun k hk => ?_)
    have := (hnear k (by omega)).2.1
    rw [sub_sub] at this
    exact this
  · rw [c3]
    exact moment e hdown
  · rw [c4]
    exact moment e' (fun k hk => hlast.le.trans (hdown k hk))
  · intro hfree
    have f0 : ∀ k ∈ Finset.range (i + 1), (r k).1 = load g.z k := fun k hk =>
      (hnear k (by rw [Finset.mem_range] at hk; omega)).2.2.2.1 (hfree k (by rw [Finset.mem_range] at hk; omega) .z)
    have f1 : ∀ k ∈ Finset.range (i + 1), (r k).2.1 = load g.y k := fun k hk =>
      (hnear k (by rw [Finset.mem_range] at hk; omega)).2.2.2.2.1 (hfree k (by rw [Finset.mem_range] at hk; omega) .y)
    have f2 : ∀ k ∈ Finset.range (i + 1), (r k).2.2 = load g.x k := fun k hk =>
      (hnear k (by rw [Finset.mem_range] at hk; omega)).2.2.2.2.2 (hfree k (by rw [Finset.mem_range] at hk; omega) .x)
    unfold loadsAbove
    refine ⟨?_, ?_⟩
    · rw [c1, c2, c3]
      refine Prod.ext (Finset.sum_congr rfl f0) (Prod.ext (Finset.sum_congr rfl f1) ?_)
      dsimp only
      refine Finset.sum_congr rfl (fun k hk => ?_)
      rw [f1 k hk, f2 k hk]
    · rw [c1, c2, c4]
      refine Prod.ext (Finset.sum_congr rfl f0) (Prod.ext (Finset.sum_congr rfl f1) ?_)
      dsimp only
      refine Finset.sum_congr rfl (fun k hk => ?_)
      rw [f1 k hk, f2 k hk]

/-- **C80, from the public calls.** -/
theorem C80_model (pi : K) (hpi : 0 < pi) (ty : ElementType) (uw E nu : K) (mat : Pile.Material K)
    (hm : Pile.mkMaterial uw E nu = some mat) (hnu : ty = .timoshenko → -(3 / 4) ≤ nu)
    (sections : List (Pile.Section K)) (hb : ∀ s ∈ sections, Spec.Pile.Built s ∧ s.thickness < s.diameter)
    (p : Pile.Pile K) (hp : Pile.mkPile sections mat = .ok p) (top tip : K) (htop : p.topElevation = some top)
    (htip : p.bottomElevation = some tip) (x2 : List K) (c : K) (hc : 1 / 100 ≤ c)
    (hgrid : ∀ r, Spec.Mesh.Required p tip none x2 r → Spec.Mesh.OnGrid r) (hin : ∀ x ∈ x2, tip ≤ x ∧ x ≤ top) (bcs : List (Cond K))
    (T : Tables K) (hT : solveModel pi ty p x2 c bcs = some T) :
    ∃ C g, getCoordinates p none x2 c = some C ∧ globalForces C.nodes bcs = .ok g ∧
      ∀ i e e', C.nodes[i]? = some e → C.nodes[i + 1]? = some e' →
      ∃ N V M M' : K, T.forces[2 * i]? = some (e, N, V, M) ∧ T.forces[2 * i + 1]? = some (e', N, V, M') ∧
        |N - (resultant C g T i e).1| ≤ (i + 1) / 1000 ∧ |V - (resultant C g T i e).2.1| ≤ (i + 1) / 1000 ∧
        |M - (resultant C g T i e).2.2| ≤ ∑ k ∈ Finset.range (i + 1), (1 + (elev C k - e)) / 1000 ∧
        |M' - (resultant C g T i e').2.2| ≤ ∑ k ∈ Finset.range (i + 1), (1 + (elev C k - e')) / 1000 ∧
        ((∀ k ≤ i, ∀ a, Free C.nodes bcs a k) →
          (N, V, M) = loadsAbove C g i e ∧ (N, V, M') = loadsAbove C g i e') := by
  obtain ⟨hst, hreg, C, hC, hmesh, hs⟩ := ready pi hpi ty uw E nu mat hm hnu sections hb p hp top tip htop htip x2 c hc
    hgrid hin
  rw [hs] at hT
  obtain ⟨g, hg, h⟩ := C80_tables pi ty p top tip hst hreg C hmesh bcs T hT
  exact ⟨C, g, hC, hg, h⟩

/-- **C80, statically determinate piles.** Two analyses without soil on the same mesh with the same conditions, none of
which holds a node other than the last: whatever the sections, the materials and the element types, the section forces are
the same. -/
theorem C80_determinate (pi pi' : K) (ty ty' : ElementType) (p p' : Pile.Pile K) (top tip : K) (hp : Stack p top tip)
    (hp' : Stack p' top tip)
    (hreg : ∀ s ∈ p.sections, ∀ L : K, 0 < L → Regular ty (elemOf pi p.material s L))
    (hreg' : ∀ s ∈ p'.sections, ∀ L : K, 0 < L → Regular ty' (elemOf pi' p'.material s L)) (C : Coordinates K)
    (h : MeshOn p top tip C) (h' : MeshOn p' top tip C) (bcs : List (Cond K)) (T T' : Tables K)
    (hT : solveOn pi ty p C bcs = some T) (hT' : solveOn pi' ty' p' C bcs = some T')
    (hfree : ∀ k, k + 1 < C.nodes.length → ∀ a, Free C.nodes bcs a k) : T.forces = T'.forces := by
  obtain ⟨hlen, -⟩ := C22_tables pi ty p top tip hp hreg C h bcs T hT
  obtain ⟨hlen', -⟩ := C22_tables pi' ty' p' top tip hp' hreg' C h' bcs T' hT'
  obtain ⟨g, hg, ht⟩ := C80_tables pi ty p top tip hp hreg C h bcs T hT
  obtain ⟨g', hg', ht'⟩ := C80_tables pi' ty' p' top tip hp' hreg' C h' bcs T' hT'
  rw [hg] at hg'
  cases hg'
  have key : ∀ i, i + 1 < C.nodes.length → T.forces[2 * i]? = T'.forces[2 * i]? ∧
      T.forces[2 * i + 1]? = T'.forces[2 * i + 1]? := by
    intro i hi
    obtain ⟨N, V, M, M', a1, a2, -, -, -, -, a3⟩ := ht i _ _ (List.getElem?_eq_getElem (by omega))
      (List.getElem?_eq_getElem hi)
    obtain ⟨N₂, V₂, M₂, M₂', b1, b2, -, -, -, -, b3⟩ := ht' i _ _ (List.getElem?_eq_getElem (by omega))
      (List.getElem?_eq_getElem hi)
    obtain ⟨a4, a5⟩ := a3 (fun k hk => hfree k (by omega))
    obtain ⟨b4, b5⟩ := b3 (fun k hk => hfree k (by omega))
    rw [a1, a2, b1, b2, a4, a5, b4, b5]
    exact ⟨rfl, rfl⟩
  apply List.ext_getElem?
  intro j
  by_cases hj : j < T.forces.length
  · rcases Nat.even_or_odd' j with ⟨i, rfl | rfl⟩
    · exact (key i (by omega)).1
    · exact (key i (by omega)).2
  · rw [List.getElem?_eq_none (by omega), List.getElem?_eq_none (by omega)]

end tables

/-! ### in a pile in soil -/

section soil
variable {n : ℕ}

/-- Nodal forces of the springs along the shaft and at the tip. -/
noncomputable def springForce (ty : ElementType) (el : Fin n → Elem ℝ) (s : Fin n → SoilK ℝ) (h m q : ℝ)
    (d : Fin (3 * n + 3) → ℝ) (r : Fin (3 * n + 3)) : ℝ :=
  ((assemble n (fun i => pyMatrix (el i).L (s i).py.1 (s i).py.2
      + tzMatrix (el i).L (s i).tz.1 (s i).tz.2 + mtMatrix ty (el i) (s i).mt.1 (s i).mt.2)
      + baseMatrix n h m q) *ᵥ d) r

/-- Section forces as listed for element `i`. -/
noncomputable def listedForces (ty : ElementType) (el : Fin n → Elem ℝ) (d : Fin (3 * n + 3) → ℝ) (i : Fin n) :
    (ℝ × ℝ × ℝ) × (ℝ × ℝ × ℝ) := sectionForces (el i).L (internalForces ty el d i)

/-- The nodes up to the top of element `i`. -/
def nodesAbove (i : Fin n) : Finset (Fin (n + 1)) := Finset.univ.filter (fun k => k.1 ≤ i.1)

theorem sum_above_zero (h : 0 < n) (f : Fin (n + 1) → ℝ) : ∑ k ∈ nodesAbove (⟨0, h⟩ : Fin n), f k = f 0 := by
  have : nodesAbove (⟨0, h⟩ : Fin n) = {0} := by
    ext k
    rw [Finset.mem_singleton, Fin.ext_iff]
    simp only [nodesAbove, Finset.mem_filter, Finset.mem_univ, true_and]
    exact Nat.le_zero
  rw [this, Finset.sum_singleton]

theorem sum_above_succ (i : ℕ) (h : i + 1 < n) (f : Fin (n + 1) → ℝ) :
    ∑ k ∈ nodesAbove (⟨i + 1, h⟩ : Fin n), f k
      = ∑ k ∈ nodesAbove (⟨i, by omega⟩ : Fin n), f k + f ⟨i + 1, by omega⟩ := by
  have : nodesAbove (⟨i + 1, h⟩ : Fin n) = insert ⟨i + 1, by omega⟩ (nodesAbove (⟨i, by omega⟩ : Fin n)) := by
    ext k
    simp only [nodesAbove, Finset.mem_filter, Finset.mem_univ, true_and, Finset.mem_insert, Fin.ext_iff]
    omega
  rw [this, Finset.sum_insert (by simp [nodesAbove]), add_comm]

/-- **C80, any displacements.** The section forces of an element are the resultants of the nodal forces of the pile above,
about the top of the element and about its bottom. -/
theorem cut_beam (ty : ElementType) (el : Fin n → Elem ℝ) (hL : ∀ i, (el i).L ≠ 0) (hp : ∀ i, 1 + phi ty (el i) ≠ 0)
    (d : Fin (3 * n + 3) → ℝ) (R : Fin (n + 1) → Fin 3 → ℝ)
    (hR : ∀ k c, R k c = (beamStiffness ty n el *ᵥ d) (dof k c)) (x : Fin (n + 1) → ℝ)
    (hx : x = nodeDepth (fun i => (el i).L)) : ∀ (i : ℕ) (hi : i < n),
    listedForces ty el d ⟨i, hi⟩ =
      ((∑ k ∈ nodesAbove (⟨i, hi⟩ : Fin n), R k 0, ∑ k ∈ nodesAbove (⟨i, hi⟩ : Fin n), R k 1,
        ∑ k ∈ nodesAbove (⟨i, hi⟩ : Fin n), (R k 2 - (x (Fin.castSucc ⟨i, hi⟩) - x k) * R k 1)),
       (∑ k ∈ nodesAbove (⟨i, hi⟩ : Fin n), R k 0, ∑ k ∈ nodesAbove (⟨i, hi⟩ : Fin n), R k 1,
        ∑ k ∈ nodesAbove (⟨i, hi⟩ : Fin n), (R k 2 - (x (Fin.succ ⟨i, hi⟩) - x k) * R k 1))) := by
  have bottom : ∀ (i : ℕ) (hi : i < n) (N V M : ℝ), (listedForces ty el d ⟨i, hi⟩).1 = (N, V, M) →
      listedForces ty el d ⟨i, hi⟩ = ((N, V, M), (N, V, M - V * (x (Fin.succ ⟨i, hi⟩) - x (Fin.castSucc ⟨i, hi⟩)))) := by
    intro i hi N V M ht
    obtain ⟨c1, c2, c3, -⟩ := C22_element ty el d ⟨i, hi⟩ (hL _) (hp _)
    change (listedForces ty el d ⟨i, hi⟩).1.1 = (listedForces ty el d ⟨i, hi⟩).2.1 at c1
    change (listedForces ty el d ⟨i, hi⟩).1.2.1 = (listedForces ty el d ⟨i, hi⟩).2.2.1 at c2
    change ((listedForces ty el d ⟨i, hi⟩).1.2.2 - (listedForces ty el d ⟨i, hi⟩).2.2.2) / (el ⟨i, hi⟩).L
      = (listedForces ty el d ⟨i, hi⟩).1.2.1 at c3
    rw [ht] at c1 c2 c3
    rw [div_eq_iff (hL _)] at c3
    have hd := nodeDepth_succ (fun i => (el i).L) ⟨i, hi⟩
    refine Prod.ext ht (Prod.ext c1.symm (Prod.ext c2.symm ?_))
    show (listedForces ty el d ⟨i, hi⟩).2.2.2 = _
    rw [hx, hd]
    dsimp only at c3 ⊢
    linear_combination -c3
  have lever : ∀ (i : ℕ) (hi : i < n),
      ∑ k ∈ nodesAbove (⟨i, hi⟩ : Fin n), (R k 2 - (x (Fin.castSucc ⟨i, hi⟩) - x k) * R k 1)
        - (∑ k ∈ nodesAbove (⟨i, hi⟩ : Fin n), R k 1) * (x (Fin.succ ⟨i, hi⟩) - x (Fin.castSucc ⟨i, hi⟩))
      = ∑ k ∈ nodesAbove (⟨i, hi⟩ : Fin n), (R k 2 - (x (Fin.succ ⟨i, hi⟩) - x k) * R k 1) := by
    intro i hi
    rw [Finset.sum_mul, ← Finset.sum_sub_distrib]
    refine Finset.sum_congr rfl (fun k _ => ?_)
    ring
  intro i
  induction i with
  | zero =>
    intro hi
    obtain ⟨j1, j2, j3⟩ := jump_eq ty el hL hp d ⟨0, by omega⟩
    unfold jump at j1 j2 j3
    rw [dif_pos hi, dif_neg (lt_irrefl 0), sub_zero] at j1 j2 j3
    have ht : (listedForces ty el d ⟨0, hi⟩).1 = (∑ k ∈ nodesAbove (⟨0, hi⟩ : Fin n), R k 0,
        ∑ k ∈ nodesAbove (⟨0, hi⟩ : Fin n), R k 1,
        ∑ k ∈ nodesAbove (⟨0, hi⟩ : Fin n), (R k 2 - (x (Fin.castSucc ⟨0, hi⟩) - x k) * R k 1)) := by
      rw [sum_above_zero, sum_above_zero, sum_above_zero, hR, hR, hR]
      refine Prod.ext j1 (Prod.ext j2 (j3.trans ?_))
      show _ = _ - (x (Fin.castSucc ⟨0, hi⟩) - x (Fin.castSucc ⟨0, hi⟩)) * _
      rw [sub_self, zero_mul, sub_zero]
      rfl
    rw [bottom 0 hi _ _ _ ht, lever]
  | succ i ih =>
    intro hi
    have ihi := ih (by omega)
    obtain ⟨j1, j2, j3⟩ := jump_eq ty el hL hp d ⟨i + 1, by omega⟩
    unfold jump at j1 j2 j3
    rw [dif_pos hi, dif_pos (Nat.succ_pos i)] at j1 j2 j3
    change (listedForces ty el d ⟨i + 1, hi⟩).1.1 - (listedForces ty el d ⟨i, _⟩).2.1 = _ at j1
    change (listedForces ty el d ⟨i + 1, hi⟩).1.2.1 - (listedForces ty el d ⟨i, _⟩).2.2.1 = _ at j2
    change (listedForces ty el d ⟨i + 1, hi⟩).1.2.2 - (listedForces ty el d ⟨i, _⟩).2.2.2 = _ at j3
    rw [ihi] at j1 j2 j3
    dsimp only at j1 j2 j3
    have ht : (listedForces ty el d ⟨i + 1, hi⟩).1 = (∑ k ∈ nodesAbove (⟨i + 1, hi⟩ : Fin n), R k 0,
        ∑ k ∈ nodesAbove (⟨i + 1, hi⟩ : Fin n), R k 1,
        ∑ k ∈ nodesAbove (⟨i + 1, hi⟩ : Fin n), (R k 2 - (x (Fin.castSucc ⟨i + 1, hi⟩) - x k) * R k 1)) := by
      rw [sum_above_succ, sum_above_succ, sum_above_succ, hR ⟨i + 1, _⟩, hR ⟨i + 1, _⟩, hR ⟨i + 1, _⟩]
      refine Prod.ext (by dsimp only; linear_combination j1) (Prod.ext (by dsimp only; linear_combination j2) ?_)
      dsimp only
      have e1 : (Fin.castSucc ⟨i + 1, hi⟩ : Fin (n + 1)) = ⟨i + 1, by omega⟩ := rfl
      have e2 : (Fin.succ (⟨i, by omega⟩ : Fin n) : Fin (n + 1)) = ⟨i + 1, by omega⟩ := rfl
      rw [e2] at j3
      rw [e1, sub_self, zero_mul, sub_zero]
      linear_combination j3
    rw [bottom (i + 1) hi _ _ _ ht, lever]

/-- The nodes above element `i` are not held in direction `c` (0 axial, 1 lateral, 2 rotation). -/
def FreeAbove (fix : Fin (3 * n + 3) → Bool) (U : Fin (3 * n + 3) → ℝ) (i : Fin n) (c : Fin 3) : Prop :=
  ∀ k ∈ nodesAbove i, fix (dof k c) = false ∧ U (dof k c) = 0

/-- **C80, in soil.** In a converged analysis the listed `N`, `V` and `M` at the top and at the bottom of element `i` are the
resultants of the loads on the nodes above minus the forces the springs (with the secant stiffness of the reported
displacements) exert on them, up to the reported error times the length of the vector of lever arms, in the directions in
which no node above is held. -/
theorem C80_soil (ty : ElementType) (el : Fin n → Elem ℝ) (hL : ∀ i, (el i).L ≠ 0)
    (hp : ∀ i, 1 + phi ty (el i) ≠ 0) (sp : Springs ℝ n) (F U : Fin (3 * n + 3) → ℝ) (fix : Fin (3 * n + 3) → Bool)
    (maxIter : ℕ) (d Q : Fin (3 * n + 3) → ℝ) (it : ℕ) (tolSq resSq : ℝ)
    (h : winkler (buildStiffness ty el sp) F U fix maxIter = .converged d Q it tolSq resSq) :
    resSq < tolSq ∧ ∃ s hh m q, SecantSprings sp d s hh m q ∧ ∀ i : Fin n,
      let f := listedForces ty el d i
      let P := fun k c => F (dof k c) - springForce ty el s hh m q d (dof k c)
      let x := nodeDepth (fun i => (el i).L)
      (FreeAbove fix U i 0 → f.1.1 = f.2.1 ∧ (f.1.1 - ∑ k ∈ nodesAbove i, P k 0) ^ 2 ≤ (i + 1) * resSq) ∧
      (FreeAbove fix U i 1 → f.1.2.1 = f.2.2.1 ∧ (f.1.2.1 - ∑ k ∈ nodesAbove i, P k 1) ^ 2 ≤ (i + 1) * resSq) ∧
      (FreeAbove fix U i 1 → FreeAbove fix U i 2 →
        (f.1.2.2 - ∑ k ∈ nodesAbove i, (P k 2 - (x i.castSucc - x k) * P k 1)) ^ 2
            ≤ (∑ k ∈ nodesAbove i, (1 + (x i.castSucc - x k) ^ 2)) * resSq ∧
        (f.2.2.2 - ∑ k ∈ nodesAbove i, (P k 2 - (x i.succ - x k) * P k 1)) ^ 2
            ≤ (∑ k ∈ nodesAbove i, (1 + (x i.succ - x k) ^ 2)) * resSq) := by
  obtain ⟨-, -, -, -, Ks, hK, hr, hlt⟩ := C26_converged _ F U fix maxIter d Q it tolSq resSq h
  obtain ⟨s, hh, m, q, hd, h1, h2, h3, hKs⟩ := build_parts ty el sp .secant d Ks hK
  refine ⟨hlt, s, hh, m, q, ⟨hd, h1, h2, h3⟩, fun i => ?_⟩
  intro f P x
  -- the out-of-balance forces
  let r : Fin (n + 1) → Fin 3 → ℝ := fun k c =>
    if fix (dof k c) = true ∨ U (dof k c) ≠ 0 then 0 else F (dof k c) - (Ks *ᵥ d) (dof k c)
  have hR : ∀ k c, (beamStiffness ty n el *ᵥ d) (dof k c)
      = (Ks *ᵥ d) (dof k c) - springForce ty el s hh m q d (dof k c) := by
    intro k c
    obtain ⟨b0, b1, b2⟩ := C22_jumps_soil ty el s hh m q hL hp (Ks *ᵥ d) 0 d (fun r => by rw [hKs]; simp) k
    obtain ⟨j0, j1, j2⟩ := jump_eq ty el hL hp d k
    dsimp only at b0 b1 b2 j0 j1 j2
    unfold springForce
    rw [j0] at b0
    rw [j1] at b1
    rw [j2] at b2
    fin_cases c
    · simpa using eq_sub_of_add_eq b0
    · simpa using eq_sub_of_add_eq b1
    · simpa using eq_sub_of_add_eq b2
  have hf := cut_beam ty el hL hp d _ (fun k c => rfl) x rfl i.1 i.2
  have hfree : ∀ c, FreeAbove fix U i c → ∀ k ∈ nodesAbove i,
      (beamStiffness ty n el *ᵥ d) (dof k c) = P k c - r k c := by
    intro c hc k hk
    have hk' := hc k hk
    have : r k c = F (dof k c) - (Ks *ᵥ d) (dof k c) := by
      simp only [r]
      rw [if_neg]
      rw [hk'.1, hk'.2]
      simp
    rw [hR, this]
    simp only [P]
    ring
  have hsum : ∑ k : Fin (n + 1), (r k 0 ^ 2 + r k 1 ^ 2 + r k 2 ^ 2) = resSq := by
    rw [← hr, sum_dof]
    refine Finset.sum_congr rfl (fun k _ => ?_)
    rw [Fin.sum_univ_three]
    simp only [r]
    congr 1
    · congr 1 <;> (split <;> simp)
    · split <;> simp
  have hpart : ∀ g : Fin (n + 1) → ℝ, (∀ k, 0 ≤ g k) → (∀ k, g k ≤ r k 0 ^ 2 + r k 1 ^ 2 + r k 2 ^ 2) →
      ∑ k ∈ nodesAbove i, g k ≤ resSq := by
    intro g g0 g1
    rw [← hsum]
    exact (Finset.sum_le_univ_sum_of_nonneg g0).trans (Finset.sum_le_sum (fun k _ => g1 k))
  have hcard : ((nodesAbove i).card : ℝ) = i + 1 := by
    have : nodesAbove i = Finset.univ.filter (fun k : Fin (n + 1) => k.1 < i.1 + 1) := by
      ext k
      simp only [nodesAbove, Finset.mem_filter, Finset.mem_univ, true_and]
      omega
    rw [this, Fin.card_filter_val_lt]
    have hi := i.2
    rw [min_eq_right (by omega)]
    push_cast
    ring
  have force : ∀ c, FreeAbove fix U i c →
      (∑ k ∈ nodesAbove i, (beamStiffness ty n el *ᵥ d) (dof k c) - ∑ k ∈ nodesAbove i, P k c) ^ 2
        ≤ (i + 1) * resSq := by
    intro c hc
    rw [← Finset.sum_sub_distrib]
    have e1 : ∑ k ∈ nodesAbove i, ((beamStiffness ty n el *ᵥ d) (dof k c) - P k c) = ∑ k ∈ nodesAbove i, -r k c :=
      Finset.sum_congr rfl (fun k hk => by rw [hfree c hc k hk]; ring)
    rw [e1, ← hcard]
    have e2 := Finset.sum_mul_sq_le_sq_mul_sq (nodesAbove i) (fun _ => (1 : ℝ)) (fun k => -r k c)
    simp only [one_mul, one_pow, Finset.sum_const, nsmul_eq_mul, mul_one, neg_sq] at e2
    refine e2.trans ?_
    refine mul_le_mul_of_nonneg_left (hpart _ (fun k => sq_nonneg _) (fun k => ?_)) (by positivity)
    have hc3 : c = 0 ∨ c = 1 ∨ c = 2 := by fin_cases c <;> simp
    rcases hc3 with rfl | rfl | rfl <;> nlinarith [sq_nonneg (r k 0), sq_nonneg (r k 1), sq_nonneg (r k 2)]
  have moment : FreeAbove fix U i 1 → FreeAbove fix U i 2 → ∀ x0 : ℝ,
      (∑ k ∈ nodesAbove i, ((beamStiffness ty n el *ᵥ d) (dof k 2) - (x0 - x k) * (beamStiffness ty n el *ᵥ d) (dof k 1))
        - ∑ k ∈ nodesAbove i, (P k 2 - (x0 - x k) * P k 1)) ^ 2
        ≤ (∑ k ∈ nodesAbove i, (1 + (x0 - x k) ^ 2)) * resSq := by
    intro c1 c2 x0
    rw [← Finset.sum_sub_distrib]
    have e1 : ∑ k ∈ nodesAbove i, ((beamStiffness ty n el *ᵥ d) (dof k 2)
        - (x0 - x k) * (beamStiffness ty n el *ᵥ d) (dof k 1) - (P k 2 - (x0 - x k) * P k 1))
        = ∑ k ∈ nodesAbove i, ((x0 - x k) * r k 1 - r k 2) :=
      Finset.sum_congr rfl (fun k hk => by rw [hfree 1 c1 k hk, hfree 2 c2 k hk]; ring)
    rw [e1]
    refine (Finset.sum_sq_le_sum_mul_sum_of_sq_le_mul (nodesAbove i) (f := fun k => 1 + (x0 - x k) ^ 2)
      (g := fun k => r k 1 ^ 2 + r k 2 ^ 2) (fun k _ => by positivity) (fun k _ => by positivity) (fun k _ => ?_)).trans ?_
    · nlinarith [sq_nonneg (r k 1 + (x0 - x k) * r k 2)]
    · refine mul_le_mul_of_nonneg_left (hpart _ (fun k => by positivity) (fun k => ?_))
        (Finset.sum_nonneg (fun k _ => by positivity))
      nlinarith [sq_nonneg (r k 0)]
  have hfe : f = _ := hf
  refine ⟨fun c0 => ?_, fun c1 => ?_, fun c1 c2 => ?_⟩
  · rw [hfe]
    exact ⟨rfl, force 0 c0⟩
  · rw [hfe]
    exact ⟨rfl, force 1 c1⟩
  · rw [hfe]
    exact ⟨moment c1 c2 _, moment c1 c2 _⟩

/-- Element `k` has no soil: its tables are filled with zeros (no resistance, no displacement). -/
structure Bare (sp : Springs ℝ n) (k : Fin n) : Prop where
  py : ∀ b, ∀ q ∈ sp.py k b, q.1 = 0
  tz : ∀ b, ∀ q ∈ sp.tz k b, q.1 = 0
  mt : ∀ b, ∀ r ∈ sp.mt k b, ∀ q ∈ r.2, q.1 = 0

theorem bare_zero (sp : Springs ℝ n) (kind : Kind) (d : Fin (3 * n + 3) → ℝ) (k : Fin n) (s : SoilK ℝ) (hb : Bare sp k)
    (hs : Distributed sp kind d k s) : s = ⟨0, 0, 0⟩ := by
  have sum0 : ∀ (l : List (ℝ × ℝ)), (∀ q ∈ l, q.1 = 0) → (l.map (·.1)).sum = 0 := by
    intro l hl
    refine List.sum_eq_zero (fun y hy => ?_)
    obtain ⟨q, hq, rfl⟩ := List.mem_map.1 hy
    exact hl q hq
  have py0 : ∀ b, side s.py b = 0 := by
    intro b
    rcases hd : sp.distributedLateral with _ | _
    · exact hs.noLateral b hd
    · have := hs.lateral b hd
      rw [pyStiffness, if_pos (sum0 _ (hb.py b))] at this
      exact (Option.some.inj this).symm
  have tz0 : ∀ b, side s.tz b = 0 := by
    intro b
    rcases hd : sp.distributedAxial with _ | _
    · exact hs.noAxial b hd
    · have := hs.axial b hd
      rw [tzStiffness, if_pos] at this
      · exact (Option.some.inj this).symm
      · refine List.sum_eq_zero (fun y hy => ?_)
        obtain ⟨q, hq, rfl⟩ := List.mem_map.1 hy
        rw [hb.tz b q hq, abs_zero]
  have mt0 : ∀ b, side s.mt b = 0 := by
    intro b
    rcases hd : sp.distributedMoment with _ | _
    · exact hs.noMoment b hd
    · obtain ⟨ks, -, h2⟩ := hs.moment b hd
      unfold mtStiffness at h2
      rcases hr : sp.mt k b with _ | ⟨r, rest⟩
      · rw [hr] at h2
        simp at h2
      · rw [hr] at h2
        simp only [List.head?_cons, Option.bind_eq_bind, Option.bind_some] at h2
        rw [if_pos (sum0 _ (hb.mt b r (by rw [hr]; simp)))] at h2
        exact (Option.some.inj h2).symm
  obtain ⟨⟨a1, a2⟩, ⟨b1, b2⟩, ⟨c1, c2⟩⟩ := s
  have := py0 false; have := py0 true; have := tz0 false; have := tz0 true; have := mt0 false; have := mt0 true
  simp_all [side]

/-- Springs do not act on nodes above soil. -/
theorem springForce_zero (ty : ElementType) (el : Fin n → Elem ℝ) (s : Fin n → SoilK ℝ) (hh m q : ℝ)
    (d : Fin (3 * n + 3) → ℝ) (i : Fin n) (hs : ∀ k ≤ i, s k = ⟨0, 0, 0⟩) (k : Fin (n + 1)) (hk : k ∈ nodesAbove i)
    (c : Fin 3) : springForce ty el s hh m q d (dof k c) = 0 := by
  have hk : k.1 ≤ i.1 := by simpa [nodesAbove] using hk
  have hz : ∀ j : Fin n, j ≤ i → pyMatrix (el j).L (s j).py.1 (s j).py.2
      + tzMatrix (el j).L (s j).tz.1 (s j).tz.2 + mtMatrix ty (el j) (s j).mt.1 (s j).mt.2 = 0 := by
    intro j hj
    rw [hs j hj]
    ext a b
    simp only [Prod.fst_zero, Prod.snd_zero, pyMatrix, tzMatrix, mtMatrix, Matrix.add_apply, Matrix.zero_apply,
      Matrix.smul_apply]
    fin_cases a <;> fin_cases b <;> simp
  unfold springForce
  rw [Matrix.add_mulVec, Pi.add_apply, assemble_mulVec_dof]
  have hi := i.2
  rw [dif_pos (by omega), hz _ (by show k.1 ≤ i.1; omega)]
  have hb : (baseMatrix n hh m q *ᵥ d) (dof k c) = 0 := by
    unfold mulVec dotProduct
    refine Finset.sum_eq_zero (fun j _ => ?_)
    have : baseMatrix n hh m q (dof k c) j = 0 := by
      have hc := c.2
      have hd : (dof k c).1 = 3 * k.1 + c.1 := rfl
      unfold baseMatrix
      rw [if_neg (by omega), if_neg (by omega), if_neg (by omega)]
    show baseMatrix n hh m q (dof k c) j * d j = 0
    rw [this, zero_mul]
  rw [hb]
  by_cases h0 : 0 < k.1
  · rw [dif_pos h0, hz _ (by show k.1 - 1 ≤ i.1; omega)]
    simp
  · rw [dif_neg h0]
    simp

/-- **C80, above the ground.** In a converged analysis of a pile that stands free above the ground, with no support above
the ground, the section forces in the free part are the resultants of the loads above, up to the reported error times the
length of the vector of lever arms: in particular the moment at ground level is that of the loads about the ground. -/
theorem C80_above_ground (ty : ElementType) (el : Fin n → Elem ℝ) (hL : ∀ i, (el i).L ≠ 0)
    (hp : ∀ i, 1 + phi ty (el i) ≠ 0) (sp : Springs ℝ n) (F U : Fin (3 * n + 3) → ℝ) (fix : Fin (3 * n + 3) → Bool)
    (maxIter : ℕ) (d Q : Fin (3 * n + 3) → ℝ) (it : ℕ) (tolSq resSq : ℝ)
    (h : winkler (buildStiffness ty el sp) F U fix maxIter = .converged d Q it tolSq resSq) (i : Fin n)
    (hbare : ∀ k ≤ i, Bare sp k) (hfree : ∀ c, FreeAbove fix U i c) :
    let f := listedForces ty el d i
    let x := nodeDepth (fun i => (el i).L)
    resSq < tolSq ∧
    (f.1.1 = f.2.1 ∧ (f.1.1 - ∑ k ∈ nodesAbove i, F (dof k 0)) ^ 2 ≤ (i + 1) * resSq) ∧
    (f.1.2.1 = f.2.2.1 ∧ (f.1.2.1 - ∑ k ∈ nodesAbove i, F (dof k 1)) ^ 2 ≤ (i + 1) * resSq) ∧
    (f.1.2.2 - ∑ k ∈ nodesAbove i, (F (dof k 2) - (x i.castSucc - x k) * F (dof k 1))) ^ 2
        ≤ (∑ k ∈ nodesAbove i, (1 + (x i.castSucc - x k) ^ 2)) * resSq ∧
    (f.2.2.2 - ∑ k ∈ nodesAbove i, (F (dof k 2) - (x i.succ - x k) * F (dof k 1))) ^ 2
        ≤ (∑ k ∈ nodesAbove i, (1 + (x i.succ - x k) ^ 2)) * resSq := by
  intro f x
  obtain ⟨hlt, s, hh, m, q, hs, hi⟩ := C80_soil ty el hL hp sp F U fix maxIter d Q it tolSq resSq h
  obtain ⟨i0, i1, i2⟩ := hi i
  have hz : ∀ k ≤ i, s k = ⟨0, 0, 0⟩ := fun k hk => bare_zero sp .secant d k (s k) (hbare k hk) (hs.shaft k)
  have hP : ∀ k ∈ nodesAbove i, ∀ c, F (dof k c) - springForce ty el s hh m q d (dof k c) = F (dof k c) := by
    intro k hk c
    rw [springForce_zero ty el s hh m q d i hz k hk c, sub_zero]
  have s0 : ∀ c, ∑ k ∈ nodesAbove i, (F (dof k c) - springForce ty el s hh m q d (dof k c))
      = ∑ k ∈ nodesAbove i, F (dof k c) := fun c => Finset.sum_congr rfl (fun k hk => hP k hk c)
  have s1 : ∀ x0 : ℝ, ∑ k ∈ nodesAbove i, ((F (dof k 2) - springForce ty el s hh m q d (dof k 2))
        - (x0 - x k) * (F (dof k 1) - springForce ty el s hh m q d (dof k 1)))
      = ∑ k ∈ nodesAbove i, (F (dof k 2) - (x0 - x k) * F (dof k 1)) :=
    fun x0 => Finset.sum_congr rfl (fun k hk => by rw [hP k hk 1, hP k hk 2])
  have j0 := i0 (hfree 0)
  have j1 := i1 (hfree 1)
  have j2 := i2 (hfree 1) (hfree 2)
  dsimp only at j0 j1 j2
  rw [s0] at j0 j1
  rw [s1, s1] at j2
  exact ⟨hlt, j0, j1, j2⟩

end soil

/-! ### cases that meet the hypotheses -/

section cases
open OpenPile.BC OpenPile.Mesh OpenPile.Analysis OpenPile.Result OpenPile.Props.Analysis OpenPile.Props.Reported
  OpenPile.Props.Refine

/-- A loaded head and a fixed tip. -/
def bcsF : List (Cond ℚ) :=
  [⟨.force, 0, none, some (.num 100), some (.num (-500))⟩,
   ⟨.fixation, -10, some (.flag true), some (.flag true), some (.flag true)⟩]

theorem freeF (k : ℕ) (hk : k + 1 < nodesE.nodes.length) (a : Axis) : Free nodesE.nodes bcsF a k := by
  have hk : k < 5 := by
    simp [nodesE] at hk
    omega
  refine ⟨⟨_, (rfl : _ = Except.ok _), ?_⟩, ⟨_, (rfl : _ = Except.ok _), ?_⟩⟩ <;>
    interval_cases k <;> cases a <;> decide +kernel

theorem solvedF (ty : ElementType) : ∃ T, solveOn (22 / 7) ty pileE nodesE bcsF = some T := by
  rw [← Option.ne_none_iff_exists']
  refine (C20_tables (22 / 7) (by norm_num) ty 78 210000000 (3 / 10) pileE (by decide +kernel)
    (fun _ => by norm_num) 0 (-10) stackE builtE nodesE meshE bcsF).2 ⟨?_, ?_, ?_⟩
  · intro cls
    cases cls <;> decide +kernel
  · exact ⟨5, by decide, Or.inl (by decide +kernel)⟩
  · exact ⟨5, by decide, Or.inl (by decide +kernel), Or.inl ⟨5, by decide, Or.inl (by decide +kernel)⟩⟩

theorem regularF (ty : ElementType) :
    ∀ s ∈ pileE.sections, ∀ L : ℚ, 0 < L → Regular ty (elemOf (22 / 7) pileE.material s L) :=
  fun s hs L hL => regular_of_built (22 / 7) (by norm_num) ty 78 210000000 (3 / 10) pileE.material
    (by decide +kernel) (fun _ => by norm_num) s (builtE s hs).1 (builtE s hs).2 L hL

/-- A stepped pile loaded by 100 at the head and fixed at the tip: 10 m below the head the moment is -1000. -/
example (ty : ElementType) : ∃ T, solveOn (22 / 7) ty pileE nodesE bcsF = some T ∧
    T.forces[2 * 4 + 1]? = some ((-10, -500, 100, -1000) : ℚ × ℚ × ℚ × ℚ) := by
  obtain ⟨T, hT⟩ := solvedF ty
  obtain ⟨g, hg, h⟩ := C80_tables (22 / 7) ty pileE 0 (-10) stackE (regularF ty) nodesE meshE bcsF T hT
  obtain ⟨N, V, M, M', -, a2, -, -, -, -, a3⟩ := h 4 (-8) (-10) rfl rfl
  obtain ⟨-, a4⟩ := a3 (fun k hk => freeF k (by simp [nodesE]; omega))
  have hgv : globalForces nodesE.nodes bcsF
      = .ok ⟨[0, 0, 0, 0, 0, 0], [100, 0, 0, 0, 0, 0], [-500, 0, 0, 0, 0, 0]⟩ := by decide +kernel
  rw [hgv] at hg
  cases hg
  refine ⟨T, hT, ?_⟩
  rw [a2, a4]
  decide +kernel

/-- The two theories of elements give the same section forces. -/
example : ∃ T T', solveOn (22 / 7) .eulerBernoulli pileE nodesE bcsF = some T ∧
    solveOn (22 / 7) .timoshenko pileE nodesE bcsF = some T' ∧ T.forces = T'.forces := by
  obtain ⟨T, hT⟩ := solvedF .eulerBernoulli
  obtain ⟨T', hT'⟩ := solvedF .timoshenko
  exact ⟨T, T', hT, hT', C80_determinate (22 / 7) (22 / 7) .eulerBernoulli .timoshenko pileE pileE 0 (-10) stackE stackE
    (regularF _) (regularF _) nodesE meshE meshE bcsF T T' hT hT' freeF⟩

end cases

section soilCase
open OpenPile.Props.LinearRange OpenPile.Props.Solve

/-- Two elements, the upper one above the ground. -/
noncomputable def elG : Fin 2 → Elem ℝ := fun _ => ⟨1, 1, 1, 1, 1, 1 / 10, 0⟩

noncomputable def spG : Springs ℝ 2 := ⟨fun e _ => if e = 0 then [(0, 0), (0, 0)] else [(0, 0), (1, 210)], fun _ _ => [],
  fun _ _ => [], 2, [], [], [], true, false, false, false, false, false⟩

noncomputable def kG : Fin 2 → SoilK ℝ := fun e => if e = 0 then ⟨(0, 0), (0, 0), (0, 0)⟩ else ⟨(210, 210), (0, 0), (0, 0)⟩

noncomputable def matG : Matrix (Fin (3 * 2 + 3)) (Fin (3 * 2 + 3)) ℝ := soilStiffness .eulerBernoulli 2 elG kG 0 0 0

/-- The tip is fixed. -/
def fixG : Fin (3 * 2 + 3) → Bool := fun r => decide (6 ≤ r.1)

/-- The head moves by 0.1 m and the rest stays where it is. -/
noncomputable def uG : Fin (3 * 2 + 3) → ℝ := fun r => if r.1 = 1 then 1 / 10 else 0

noncomputable def loadG : Fin (3 * 2 + 3) → ℝ := matG *ᵥ uG

theorem initG : buildStiffness .eulerBernoulli elG spG .initial 0 = some matG := by
  have h1 : soilAt spG .initial 0 = fun e => some (kG e) := by
    funext e
    have hp : ∀ b, pyAt spG .initial 0 e b = some (if e = 0 then 0 else 210) := by
      intro b
      unfold pyAt
      rw [springDisp_seen]
      have he : e = 0 ∨ e = 1 := by fin_cases e <;> simp
      rcases he with rfl | rfl <;> simp [spG, pyStiffness, curveStiffness, absQuot]
    unfold soilAt
    simp only [hp]
    have he : e = 0 ∨ e = 1 := by fin_cases e <;> simp
    rcases he with rfl | rfl <;> simp [spG, tzAt, mtAt, kG]
  have h2 : allSome (soilAt spG .initial 0) = some kG := by
    rw [h1]
    simp [allSome]
  unfold buildStiffness
  rw [h2]
  simp [spG, matG]

theorem solveG : solveEquations matG loadG 0 (fun i => fixG i || decide ((0 : Fin (3 * 2 + 3) → ℝ) i ≠ 0))
    = some (uG, 0) := by
  have hsup : (fun i => fixG i || decide ((0 : Fin (3 * 2 + 3) → ℝ) i ≠ 0)) = fixG := by
    funext i
    simp
  rw [hsup]
  have hn : solveEquations matG loadG 0 fixG ≠ none := by
    obtain ⟨-, hu⟩ := OpenPile.Props.Beam.C20_unique_partial .eulerBernoulli elG kG 0 0 0
      (fun _ => ⟨⟨by norm_num [elG], by norm_num [elG], by norm_num [elG], by norm_num [elG], by norm_num [elG],
        by norm_num [elG], by norm_num [elG], by norm_num [elG], by norm_num [elG]⟩, fun h => by cases h⟩)
      ⟨fun e => by
        unfold kG
        split
        · exact ⟨⟨le_rfl, le_rfl⟩, ⟨le_rfl, le_rfl⟩, ⟨le_rfl, le_rfl⟩, fun h => by cases h⟩
        · exact ⟨⟨by norm_num, by norm_num⟩, ⟨le_rfl, le_rfl⟩, ⟨le_rfl, le_rfl⟩, fun h => by cases h⟩,
        le_rfl, le_rfl, le_rfl⟩ fixG (by
      rintro u ⟨a, b, θ, hu⟩ h0 - - - - - -
      obtain ⟨b0, b1, b2⟩ := hu 2
      have c0 := h0 (dof (2 : Fin 3) 0) (by decide)
      have c1 := h0 (dof (2 : Fin 3) 1) (by decide)
      have c2 := h0 (dof (2 : Fin 3) 2) (by decide)
      rw [b0] at c0
      rw [b2] at c2
      rw [b1, c2, mul_zero, add_zero] at c1
      funext i
      obtain ⟨j, c, rfl⟩ := dof_surjective i
      obtain ⟨a0, a1, a2⟩ := hu j
      rw [c0] at a0
      rw [c1, c2, mul_zero, add_zero] at a1
      rw [c2] at a2
      fin_cases c
      · exact a0
      · exact a1
      · exact a2)
    obtain ⟨v, Q, h, -⟩ := hu loadG 0
    unfold matG
    rw [h]
    simp
  rw [solve_eq_some matG loadG 0 fixG hn uG (fun i _ => rfl)]
  · congr 2
    funext i
    simp [loadG]
  · intro i hi
    have : 6 ≤ i.1 := by simpa [fixG] using hi
    unfold uG
    rw [if_neg (by omega)]
    rfl

theorem smallG : SmallDisplacements spG uG := by
  refine ⟨fun _ e b => ?_, ?_, rfl, ?_, ?_, ?_⟩
  · have he : e = 0 ∨ e = 1 := by fin_cases e <;> simp
    rcases he with rfl | rfl
    · exact .inl (by simp [spG])
    · refine .inr ⟨1, 210, [], by simp [spG], by simp [spG, Asc], ?_⟩
      unfold uG
      split <;> norm_num
  all_goals intro h; cases h

theorem loadG_pos : loadG ⟨1, by norm_num⟩ = 6 / 5 := by
  unfold loadG
  simp [matG, soilStiffness, assemble, place, baseMatrix, mulVec, dotProduct, Fin.sum_univ_succ, uG, elemMatrix,
    mechMatrix, beamMatrix, pyMatrix, tzMatrix, mtMatrix, mtPattern, mtCoeffs, elG, kG, phi, kappa]
  norm_num

/-- A converged analysis of a pile of which the upper half stands above the ground: the hypotheses of
`C80_above_ground` are met, with a lateral load at the head. -/
example : ∃ t, winkler (buildStiffness .eulerBernoulli elG spG) loadG 0 fixG 100 = .converged uG 0 2 t 0 ∧
    (∀ k ≤ (0 : Fin 2), Bare spG k) ∧ (∀ c, FreeAbove fixG 0 (0 : Fin 2) c) ∧ loadG (dof 0 1) = 6 / 5 := by
  obtain ⟨t, ht⟩ := C60_linear_partial .eulerBernoulli elG spG loadG 0 fixG matG uG 0 initG solveG smallG
    ⟨⟨1, by norm_num⟩, by rw [loadG_pos]; norm_num⟩ 100 (by norm_num)
  refine ⟨t, ht, ?_, ?_, loadG_pos⟩
  · intro k hk
    have : k = 0 := by
      rw [Fin.ext_iff]
      exact Nat.le_zero.1 hk
    subst this
    exact ⟨fun b q hq => by simp [spG] at hq; rw [hq], fun b q hq => by simp [spG] at hq,
      fun b r hr => by simp [spG] at hr⟩
  · intro c k hk
    have hk0 : k.1 ≤ 0 := by simpa [nodesAbove] using hk
    refine ⟨?_, rfl⟩
    have := c.2
    refine decide_eq_false ?_
    simp only [dof]
    omega

end soilCase
end OpenPile.Props.FreeBody

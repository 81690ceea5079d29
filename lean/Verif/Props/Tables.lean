/-
C88: the tables of springs name the node, the elevation and the quantity of every row.
-/
import Verif.Model.Tables
import Verif.Props.Extract
import Verif.Props.Mesh

namespace OpenPile.Props.Tables
open OpenPile OpenPile.Extract OpenPile.Mesh

variable {K : Type} [Field K] [LinearOrder K]

/-- The names of the two rows of a spring. -/
def names : Query → String × String
  | .axial _ => ("t", "z")
  | .lateral _ => ("p", "y")
  | .rotational _ => ("m", "t")
  | .baseShear => ("Hb", "y")
  | .baseAxial => ("q", "z")
  | .baseRotational => ("Mb", "t")

/-- The springs of the pile tip. -/
def Base (q : Query) : Prop := q = .baseShear ∨ q = .baseAxial ∨ q = .baseRotational

theorem flatMap_two {α β : Type} (f g : α → β) (l : List α) (j : ℕ) :
    (l.flatMap (fun a => [f a, g a]))[2 * j]? = l[j]?.map f ∧
    (l.flatMap (fun a => [f a, g a]))[2 * j + 1]? = l[j]?.map g := by
  induction l generalizing j with
  | nil => simp
  | cons a l ih =>
    cases j with
    | zero => simp
    | succ j =>
      have h1 : 2 * (j + 1) = 2 * j + 1 + 1 := by ring
      have h2 : 2 * (j + 1) + 1 = 2 * j + 1 + 1 + 1 := by ring
      rw [h1]
      simp only [List.flatMap_cons, List.cons_append, List.nil_append, List.getElem?_cons_succ]
      exact ih j

theorem flatMap_two_length {α β : Type} (f g : α → β) (l : List α) :
    (l.flatMap (fun a => [f a, g a])).length = 2 * l.length := by
  induction l with
  | nil => rfl
  | cons a l ih =>
    simp only [List.flatMap_cons, List.length_append, ih, List.length_cons, List.length_nil]
    ring

omit [Field K] [LinearOrder K] in
theorem columns_get {node : List ℕ} {elevation : List K} {type : List String} {values : List (List K)}
    {R : List (TableRow K)} (h : columns node elevation type values = some R) :
    R.length = elevation.length ∧ ∀ (i a : ℕ) (b : K) (c : String) (d : List K), node[i]? = some a → elevation[i]? = some b → type[i]? = some c →
      values[i]? = some d → R[i]? = some ⟨a, b, c, d⟩ := by
  unfold columns at h
  by_cases hl : node.length = elevation.length ∧ type.length = elevation.length ∧ values.length = elevation.length
  · rw [if_pos hl, Option.some.injEq] at h
    subst h
    constructor
    · rw [List.length_zipWith, List.length_zip, List.length_zip]
      omega
    · intro i a b c d h1 h2 h3 h4
      rw [List.getElem?_zipWith, (List.getElem?_zip_eq_some (z := (a, b))).2 ⟨h1, h2⟩,
        (List.getElem?_zip_eq_some (z := (c, d))).2 ⟨h3, h4⟩]
  · rw [if_neg hl] at h
    cases h

omit [Field K] [LinearOrder K] in
theorem columns_some {node : List ℕ} {elevation : List K} {type : List String} {values : List (List K)}
    (h1 : node.length = elevation.length) (h2 : type.length = elevation.length)
    (h3 : values.length = elevation.length) : ∃ R, columns node elevation type values = some R :=
  ⟨_, if_pos ⟨h1, h2, h3⟩⟩

theorem table_length (k : Kind) (z : ℕ → K) (n : ℕ) (s : Springs K) : (table k z n s).length = n + 1 := by
  unfold table
  rw [List.length_map, List.length_range]

/-- **C88, springs along the pile.** A mesh has one element less than it has nodes. Every table of springs along the
pile, except the distributed table of moments which always raises (C41), can be made, whatever was asked before. It has
two rows for every node, from the head to the tip, and no others: they carry the number of the node, its elevation in
the list of nodes, and the names of the resistance and of the displacement, in this order. -/
theorem C88_along (C : Coordinates K) (hC : C.elements.length + 1 = C.nodes.length) (tip : K) (q : Query) (hq : ¬ Base q)
    (hq' : q ≠ .rotational .distributed) (s : Store K) :
    ∃ R t, report C tip q s = some R ∧ (query (fun i => C.nodes.getD i 0) C.elements.length q s).2 = some t ∧
      t.length = C.nodes.length ∧ R.length = 2 * C.nodes.length ∧
      ∀ j z c, C.nodes[j]? = some z → t[j]? = some c →
        R[2 * j]? = some ⟨j, z, (names q).1, c.r⟩ ∧ R[2 * j + 1]? = some ⟨j, z, (names q).2, c.d⟩ := by
  have key : ∀ (a b : String) (t : List (Curve K)), t.length = C.nodes.length →
      ∃ R, labelled C.elements.length C.nodes a b t = some R ∧ R.length = 2 * C.nodes.length ∧
      ∀ j z c, C.nodes[j]? = some z → t[j]? = some c →
        R[2 * j]? = some ⟨j, z, a, c.r⟩ ∧ R[2 * j + 1]? = some ⟨j, z, b, c.d⟩ := by
    intro a b t ht
    have l1 := flatMap_two_length (fun i : ℕ => i) (fun i : ℕ => i) (List.range (C.elements.length + 1))
    have l2 := flatMap_two_length (fun z : K => z) (fun z : K => z) C.nodes
    have l3 := flatMap_two_length (fun _ : K => a) (fun _ : K => b) C.nodes
    have l4 := flatMap_two_length (fun c : Curve K => c.r) (fun c : Curve K => c.d) t
    rw [List.length_range] at l1
    obtain ⟨R, hR⟩ := columns_some (node := twice (List.range (C.elements.length + 1))) (elevation := twice C.nodes)
      (type := C.nodes.flatMap (fun _ => [a, b])) (values := t.flatMap (fun c => [c.r, c.d]))
      (by unfold twice; omega) (by unfold twice; omega) (by unfold twice; omega)
    obtain ⟨h1, h2⟩ := columns_get hR
    refine ⟨R, hR, by rw [h1]; exact l2, fun j z c hz hc => ?_⟩
    have hj : j < C.elements.length + 1 := by
      rw [hC]
      exact (List.getElem?_eq_some_iff.1 hz).1
    have hr : (List.range (C.elements.length + 1))[j]? = some j := List.getElem?_range hj
    obtain ⟨a1, a2⟩ := flatMap_two (fun i : ℕ => i) (fun i : ℕ => i) (List.range (C.elements.length + 1)) j
    obtain ⟨b1, b2⟩ := flatMap_two (fun z : K => z) (fun z : K => z) C.nodes j
    obtain ⟨c1, c2⟩ := flatMap_two (fun _ : K => a) (fun _ : K => b) C.nodes j
    obtain ⟨d1, d2⟩ := flatMap_two (fun c : Curve K => c.r) (fun c : Curve K => c.d) t j
    rw [hr] at a1 a2
    rw [hz] at b1 b2 c1 c2
    rw [hc] at d1 d2
    exact ⟨h2 _ _ _ _ _ a1 b1 c1 d1, h2 _ _ _ _ _ a2 b2 c2 d2⟩
  have tl : ∀ k (s' : Springs K), (table k (fun i => C.nodes.getD i 0) C.elements.length s').length = C.nodes.length :=
    fun k s' => by rw [table_length, hC]
  match q, hq, hq' with
  | .axial k, _, _ =>
    obtain ⟨R, h1, h2, h3⟩ := key "t" "z" _ (tl k (weighted (fun i => C.nodes.getD i 0) C.elements.length s.tz))
    exact ⟨R, _, h1, rfl, tl k _, h2, h3⟩
  | .lateral k, _, _ =>
    obtain ⟨R, h1, h2, h3⟩ := key "p" "y" _ (tl k (weighted (fun i => C.nodes.getD i 0) C.elements.length s.py))
    exact ⟨R, _, h1, rfl, tl k _, h2, h3⟩
  | .rotational .lumped, _, _ =>
    obtain ⟨R, h1, h2, h3⟩ := key "m" "t" _ (tl .lumped (weighted (fun i => C.nodes.getD i 0) C.elements.length
      (fun i b => ⟨maxRows (s.mt i b).m, maxRows (s.mt i b).t⟩)))
    exact ⟨R, _, h1, rfl, tl .lumped _, h2, h3⟩
  | .rotational .distributed, _, h => exact absurd rfl h
  | .baseShear, h, _ => exact absurd (Or.inl rfl) h
  | .baseAxial, h, _ => exact absurd (Or.inr (Or.inl rfl)) h
  | .baseRotational, h, _ => exact absurd (Or.inr (Or.inr rfl)) h

/-- **C88, the tip.** The tables of the base springs have the stored resistances and displacements in this order, at the
elevation of the tip. -/
theorem C88_base_partial (C : Coordinates K) (tip : K) (s : Store K) :
    (∀ R, report C tip .baseShear s = some R → R.map (fun r => (r.elevation, r.type, r.values)) =
      [(tip, "Hb", s.hb.r), (tip, "y", s.hb.d)]) ∧
    (∀ R, report C tip .baseAxial s = some R → R.map (fun r => (r.elevation, r.type, r.values)) =
      [(tip, "q", s.qz.r), (tip, "z", s.qz.d)]) ∧
    (∀ R, report C tip .baseRotational s = some R → R.map (fun r => (r.elevation, r.type, r.values)) =
      [(tip, "Mb", s.mb.r), (tip, "t", s.mb.d)]) := by
  refine ⟨?_, ?_, ?_⟩ <;> rintro R ⟨⟩ <;> rfl

/-- **C88, refuted for the tip.** Every row of a table of a base spring carries a node number that no node has. -/
theorem C88_violated_base (C : Coordinates K) (hC : C.elements.length + 1 = C.nodes.length) (tip : K) (q : Query)
    (hq : Base q) (s : Store K) : ∃ R, report C tip q s = some R ∧ R ≠ [] ∧ ∀ r ∈ R, C.nodes[r.node]? = none := by
  have key : ∀ (a b : String) (c : Curve K), ∃ R, baseTable C.elements.length tip a b c = some R ∧ R ≠ [] ∧
      ∀ r ∈ R, C.nodes[r.node]? = none := by
    intro a b c
    refine ⟨_, rfl, List.cons_ne_nil _ _, fun r hr => ?_⟩
    rw [List.getElem?_eq_none_iff]
    simp only [List.zip_cons_cons, List.zip_nil_right, List.zipWith_cons_cons, List.zipWith_nil_right,
      List.mem_cons, List.not_mem_nil, or_false] at hr
    rcases hr with rfl | rfl <;> simp only <;> omega
  rcases hq with rfl | rfl | rfl
  · exact key "Hb" "y" s.hb
  · exact key "q" "z" s.qz
  · exact key "Mb" "t" s.mb

/-! ### meshes of Models -/

variable [IsStrictOrderedRing K] [FloorRing K]

/-- The mesh of every Model has one element less than it has nodes. -/
theorem mesh_lengths {p : Pile.Pile K} {soil : Option (Soil.Profile K)} {x2mesh : List K} {c tip : K} (hc : 0 < c)
    (htip : p.bottomElevation = some tip) {C : Coordinates K} (h : getCoordinates p soil x2mesh c = some C) :
    C.elements.length + 1 = C.nodes.length := by
  obtain ⟨z, hz, hdec, hreq, hbet⟩ := Props.Mesh.C05_exact_nodes p soil x2mesh c tip hc htip
  have hC : C = ⟨z.map round4, (pairs z).map (fun e => (round4 e.1, round4 e.2))⟩ := by
    unfold getCoordinates at h
    rw [hz] at h
    exact (Option.some.inj h).symm
  have hne : z ≠ [] := by
    have : ∃ s ∈ p.sections, True := by
      unfold Pile.Pile.bottomElevation at htip
      cases hs : p.sections with
      | nil => rw [hs] at htip; simp at htip
      | cons a l => exact ⟨a, List.mem_cons_self, trivial⟩
    obtain ⟨s, hs, -⟩ := this
    exact List.ne_nil_of_mem (hreq s.top (Or.inl ⟨s, hs, Or.inl rfl⟩))
  have : 0 < z.length := List.length_pos_iff.2 hne
  rw [hC]
  simp only [List.length_map, pairs, List.length_zip, List.length_tail]
  omega

/-- **C88, for Models.** Every row of a table of springs along the pile names a node of the Model by its number and its
elevation in `nodes_coordinates`. -/
theorem C88_model {p : Pile.Pile K} {soil : Option (Soil.Profile K)} {x2mesh : List K} {c tip : K} (hc : 0 < c)
    (htip : p.bottomElevation = some tip) {C : Coordinates K} (h : getCoordinates p soil x2mesh c = some C) (q : Query)
    (hq : ¬ Base q) (s : Store K) {R : List (TableRow K)} (hR : report C tip q s = some R) :
    ∀ r ∈ R, C.nodes[r.node]? = some r.elevation ∧ (r.type = (names q).1 ∨ r.type = (names q).2) := by
  have hC := mesh_lengths hc htip h
  have hq' : q ≠ .rotational .distributed := by
    rintro rfl
    cases hR
  obtain ⟨R', t, e1, -, l1, l2, h3⟩ := C88_along C hC tip q hq hq' s
  rw [hR, Option.some.injEq] at e1
  subst e1
  intro r hr
  obtain ⟨i, hi, rfl⟩ := List.mem_iff_getElem.1 hr
  have hj : i / 2 < C.nodes.length := by omega
  obtain ⟨a1, a2⟩ := h3 (i / 2) _ _ (List.getElem?_eq_getElem hj) (List.getElem?_eq_getElem (l1 ▸ hj))
  rcases Nat.mod_two_eq_zero_or_one i with h0 | h0
  · have : 2 * (i / 2) = i := by omega
    rw [this, List.getElem?_eq_getElem hi, Option.some.injEq] at a1
    rw [a1]
    exact ⟨List.getElem?_eq_getElem hj, Or.inl rfl⟩
  · have : 2 * (i / 2) + 1 = i := by omega
    rw [this, List.getElem?_eq_getElem hi, Option.some.injEq] at a2
    rw [a2]
    exact ⟨List.getElem?_eq_getElem hj, Or.inr rfl⟩

/-- **C88, refuted for Models.** Whatever the pile, the soil and the mesh: the node of the base springs is not a node of
the Model. -/
theorem C88_violated_model {p : Pile.Pile K} {soil : Option (Soil.Profile K)} {x2mesh : List K} {c tip : K} (hc : 0 < c)
    (htip : p.bottomElevation = some tip) {C : Coordinates K} (h : getCoordinates p soil x2mesh c = some C) (q : Query)
    (hq : Base q) (s : Store K) : ∃ R, report C tip q s = some R ∧ R ≠ [] ∧ ∀ r ∈ R, C.nodes[r.node]? = none :=
  C88_violated_base C (mesh_lengths hc htip h) tip q hq s

/-! ### cases -/

/-- A pile of 10 m with elements of 5 m. -/
example : getCoordinates (K := ℚ) ⟨[⟨0, -10, 1, 1/20⟩], Pile.steel⟩ none [] 5 = some ⟨[0, -5, -10], [(0, -5), (-5, -10)]⟩ := by
  decide +kernel

/-- Its p-y springs of 1 kN/m and 2 kN/m, and its base spring at "node 3". -/
example : report (K := ℚ) ⟨[0, -5, -10], [(0, -5), (-5, -10)]⟩ (-10) (.lateral .distributed)
      ⟨fun i _ => ⟨[0, (i : ℚ) + 1], [0, 1 / 10]⟩, fun _ _ => ⟨[], []⟩, fun _ _ => ⟨[], []⟩, ⟨[0, 3], [0, 1]⟩, ⟨[], []⟩, ⟨[], []⟩⟩ =
    some [⟨0, 0, "p", [0, 5 / 2]⟩, ⟨0, 0, "y", [0, 1 / 10]⟩, ⟨1, -5, "p", [0, 25 / 3]⟩, ⟨1, -5, "y", [0, 1 / 10]⟩,
      ⟨2, -10, "p", [0, 5]⟩, ⟨2, -10, "y", [0, 1 / 10]⟩] ∧
    report (K := ℚ) ⟨[0, -5, -10], [(0, -5), (-5, -10)]⟩ (-10) .baseShear
      ⟨fun i _ => ⟨[0, (i : ℚ) + 1], [0, 1 / 10]⟩, fun _ _ => ⟨[], []⟩, fun _ _ => ⟨[], []⟩, ⟨[0, 3], [0, 1]⟩, ⟨[], []⟩, ⟨[], []⟩⟩ =
    some [⟨3, -10, "Hb", [0, 3]⟩, ⟨3, -10, "y", [0, 1]⟩] := by
  constructor <;> decide +kernel

end OpenPile.Props.Tables

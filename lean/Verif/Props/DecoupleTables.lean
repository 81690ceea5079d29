/-
C71 in the result tables and for the public calls.
-/
import Verif.Props.Decouple
import Verif.Props.SoilAnalysis

namespace OpenPile.Props.Decouple
open OpenPile.BC OpenPile.Mesh OpenPile.Kernel OpenPile.Winkler OpenPile.Result OpenPile.Analysis
open OpenPile.Spring OpenPile.Props.Solve OpenPile.Spec.Kernel OpenPile.Props.Mirror OpenPile.Props.Analysis
open OpenPile.Props.Reported OpenPile.Props.SoilStiffness Matrix

section
variable {K : Type} [Field K] [LinearOrder K] [IsStrictOrderedRing K] [FloorRing K]

/-- Two sets of conditions give the same columns of nodal loads, prescribed displacements and restraints for the
axes in `X`. -/
structure SameNodal (X : Axis → Prop) (nodes : List K) (bcs bcs' : List (Cond K)) : Prop where
  loads : ∀ g g', globalForces nodes bcs = .ok g → globalForces nodes bcs' = .ok g' → ∀ a, X a → g.get a = g'.get a
  moves : ∀ g g', globalDisp nodes bcs = .ok g → globalDisp nodes bcs' = .ok g' → ∀ a, X a → g.get a = g'.get a
  holds : ∀ g g', globalRestrained nodes bcs = .ok g → globalRestrained nodes bcs' = .ok g' →
    ∀ a, X a → g.get a = g'.get a

/-- The degrees of freedom of the axes in `X`. -/
def Of (X : Axis → Prop) {n : ℕ} (r : Fin (3 * n + 3)) : Prop := X (axisOf ⟨r.1 % 3, Nat.mod_lt _ (by norm_num)⟩)

/-- Lateral axes: `y` (displacement across) and `x` (rotation). -/
def Lat (a : Axis) : Prop := a ≠ .z

/-- The axial axis. -/
def Ax (a : Axis) : Prop := a = .z

theorem of_lat {n : ℕ} : (Of Lat : Fin (3 * n + 3) → Prop) = Across := by
  funext r
  have h3 : r.1 % 3 < 3 := Nat.mod_lt _ (by norm_num)
  have : r.1 % 3 = 0 ∨ r.1 % 3 = 1 ∨ r.1 % 3 = 2 := by omega
  unfold Of Lat Across
  rcases this with h | h | h <;> simp [h, axisOf]

theorem of_ax {n : ℕ} : (Of Ax : Fin (3 * n + 3) → Prop) = Along := by
  funext r
  have h3 : r.1 % 3 < 3 := Nat.mod_lt _ (by norm_num)
  have : r.1 % 3 = 0 ∨ r.1 % 3 = 1 ∨ r.1 % 3 = 2 := by omega
  unfold Of Ax Along
  rcases this with h | h | h <;> simp [h, axisOf]

theorem vec_get {β γ : Type} {g : Nodal β} {m n : ℕ} (hl : ∀ a, (g.get a).length = m) (f : β → γ)
    {v : Fin (3 * n + 3) → γ} (hv : asVec n ((dofList g).map f) = some v) :
    m = n + 1 ∧ ∀ r : Fin (3 * n + 3),
      (g.get (axisOf ⟨r.1 % 3, Nat.mod_lt _ (by norm_num)⟩))[r.1 / 3]?.map f = some (v r) := by
  obtain ⟨h1, h2⟩ := dofList_get g m (hl .z) (hl .y) (hl .x)
  unfold asVec at hv
  split_ifs at hv with h
  cases hv
  rw [List.length_map, h1] at h
  have hm : m = n + 1 := by omega
  refine ⟨hm, fun r => ?_⟩
  rw [← h2 (r.1 / 3) (by have := r.2; omega) ⟨r.1 % 3, Nat.mod_lt _ (by norm_num)⟩, ← List.getElem?_map]
  simp only [Nat.div_add_mod]
  rw [List.getElem?_eq_getElem]

theorem vec_agree {β γ : Type} {g g' : Nodal β} {m n : ℕ} (hl : ∀ a, (g.get a).length = m)
    (hl' : ∀ a, (g'.get a).length = m) (f : β → γ) {v v' : Fin (3 * n + 3) → γ}
    (hv : asVec n ((dofList g).map f) = some v) (hv' : asVec n ((dofList g').map f) = some v') {X : Axis → Prop}
    (h : ∀ a, X a → g.get a = g'.get a) : Agree (Of X) v v' := by
  intro r hr
  have e := (vec_get hl f hv).2 r
  rw [h _ hr, (vec_get hl' f hv').2 r] at e
  exact (Option.some.inj e).symm

theorem forces_length {nodes : List K} {bcs : List (Cond K)} {g : Nodal ℤ} (h : globalForces nodes bcs = .ok g) (a : Axis) :
    (g.get a).length = nodes.length := by
  unfold globalForces at h
  cases hv : validateBc bcs .force with
  | error e => rw [hv] at h; cases h
  | ok u =>
    rw [hv] at h
    cases h
    rw [applyBc_length]
    cases a <;> simp [Nodal.get]

theorem disp_length {nodes : List K} {bcs : List (Cond K)} {g : Nodal K} (h : globalDisp nodes bcs = .ok g) (a : Axis) :
    (g.get a).length = nodes.length := by
  unfold globalDisp at h
  cases hv : validateBc bcs .displacement with
  | error e => rw [hv] at h; cases h
  | ok u =>
    rw [hv] at h
    cases h
    rw [applyBc_length]
    cases a <;> simp [Nodal.get]

theorem restrained_length {nodes : List K} {bcs : List (Cond K)} {g : Nodal Bool}
    (h : globalRestrained nodes bcs = .ok g) (a : Axis) : (g.get a).length = nodes.length := by
  unfold globalRestrained at h
  cases hv : validateBc bcs .fixation with
  | error e => rw [hv] at h; cases h
  | ok u =>
    rw [hv] at h
    cases h
    rw [applyBc_length]
    cases a <;> simp [Nodal.get]

/-- What two analyses read from conditions with the same columns agrees on the degrees of freedom of those axes. -/
theorem read_agree {X : Axis → Prop} {nodes : List K} {bcs bcs' : List (Cond K)} (h : SameNodal X nodes bcs bcs')
    {n : ℕ} {F F' U U' : Fin (3 * n + 3) → K} {R R' : Fin (3 * n + 3) → Bool}
    (hF : ∃ g, globalForces nodes bcs = .ok g ∧ asVec n ((dofList g).map (fun i : ℤ => (i : K))) = some F)
    (hU : ∃ g, globalDisp nodes bcs = .ok g ∧ asVec n (dofList g) = some U)
    (hR : ∃ g, globalRestrained nodes bcs = .ok g ∧ asVec n (dofList g) = some R)
    (hF' : ∃ g, globalForces nodes bcs' = .ok g ∧ asVec n ((dofList g).map (fun i : ℤ => (i : K))) = some F')
    (hU' : ∃ g, globalDisp nodes bcs' = .ok g ∧ asVec n (dofList g) = some U')
    (hR' : ∃ g, globalRestrained nodes bcs' = .ok g ∧ asVec n (dofList g) = some R') :
    nodes.length = n + 1 ∧ Agree (Of X) F F' ∧ Agree (Of X) U U' ∧ Agree (Of X) R R' := by
  obtain ⟨g1, a1, b1⟩ := hF
  obtain ⟨g2, a2, b2⟩ := hU
  obtain ⟨g3, a3, b3⟩ := hR
  obtain ⟨g1', a1', b1'⟩ := hF'
  obtain ⟨g2', a2', b2'⟩ := hU'
  obtain ⟨g3', a3', b3'⟩ := hR'
  rw [← List.map_id (dofList g2)] at b2
  rw [← List.map_id (dofList g3)] at b3
  rw [← List.map_id (dofList g2')] at b2'
  rw [← List.map_id (dofList g3')] at b3'
  exact ⟨(vec_get (forces_length a1) _ b1).1,
    vec_agree (forces_length a1) (forces_length a1') _ b1 b1' (h.loads _ _ a1 a1'),
    vec_agree (disp_length a2) (disp_length a2') _ b2 b2' (h.moves _ _ a2 a2'),
    vec_agree (restrained_length a3) (restrained_length a3') _ b3 b3' (h.holds _ _ a3 a3')⟩

/-- Two results list the same deflections, rotations, shear forces and bending moments, and the same lateral
reactions up to the rounding of that table. -/
structure SameLateral (nodes : List K) (T T' : Tables K) : Prop where
  disp : T.disp.map (fun r => (r.1, r.2.2)) = T'.disp.map (fun r => (r.1, r.2.2))
  forces : T.forces.map (fun r => (r.1, r.2.2)) = T'.forces.map (fun r => (r.1, r.2.2))
  reactions : ∀ e ∈ nodes, ∀ a, a = 1 ∨ a = 2 → |listed T e a - listed T' e a| ≤ 2 / 1000

/-- Two results list the same settlements and normal forces, and the same axial reactions up to the rounding of that
table. -/
structure SameAxial (nodes : List K) (T T' : Tables K) : Prop where
  disp : T.disp.map (fun r => (r.1, r.2.1)) = T'.disp.map (fun r => (r.1, r.2.1))
  forces : T.forces.map (fun r => (r.1, r.2.1)) = T'.forces.map (fun r => (r.1, r.2.1))
  reactions : ∀ e ∈ nodes, |listed T e 0 - listed T' e 0| ≤ 2 / 1000

theorem forces_cols {ι : Type} {T T' : Tables K} {n : ℕ} {z : Fin (n + 1) → K} {f f' : Fin n → (K × K × K) × (K × K × K)}
    (hl : T.forces.length = 2 * n) (hl' : T'.forces.length = 2 * n)
    (h : ∀ i : Fin n, T.forces[2 * i.1]? = some (z i.castSucc, (f i).1) ∧
        T.forces[2 * i.1 + 1]? = some (z i.succ, (f i).2))
    (h' : ∀ i : Fin n, T'.forces[2 * i.1]? = some (z i.castSucc, (f' i).1) ∧
        T'.forces[2 * i.1 + 1]? = some (z i.succ, (f' i).2)) (c : K × K × K → ι)
    (e : ∀ i, c (f i).1 = c (f' i).1 ∧ c (f i).2 = c (f' i).2) :
    T.forces.map (fun r => (r.1, c r.2)) = T'.forces.map (fun r => (r.1, c r.2)) := by
  apply List.ext_getElem?
  intro k
  rw [List.getElem?_map, List.getElem?_map]
  by_cases hk : k < 2 * n
  · have := Nat.div_add_mod k 2
    rcases Nat.mod_two_eq_zero_or_one k with hm | hm
    · have e1 := h ⟨k / 2, by omega⟩
      have e2 := h' ⟨k / 2, by omega⟩
      have hk2 : 2 * (k / 2) = k := by omega
      simp only [hk2] at e1 e2
      rw [e1.1, e2.1]
      simp only [Option.map_some]
      rw [(e _).1]
    · have e1 := h ⟨k / 2, by omega⟩
      have e2 := h' ⟨k / 2, by omega⟩
      have hk2 : 2 * (k / 2) + 1 = k := by omega
      simp only [hk2] at e1 e2
      rw [e1.2, e2.2]
      simp only [Option.map_some]
      rw [(e _).2]
  · rw [List.getElem?_eq_none (by omega), List.getElem?_eq_none (by omega)]

/-- Tables of results that agree across the axis. -/
theorem tables_lateral (ty : ElementType) {n : ℕ} (hn : 1 ≤ n) {nodes : List K} (hlen : nodes.length = n + 1)
    (hdec : nodes.Pairwise (· > ·)) (el : Fin n → Elem K) {u u' Q Q' : Fin (3 * n + 3) → K} (hu : Agree Across u u')
    (hQ : Agree Across Q Q') {T T' : Tables K} (h : tables ty nodes el u Q = some T)
    (h' : tables ty nodes el u' Q' = some T') : SameLateral nodes T T' := by
  obtain ⟨z, rfl, hz, -⟩ := fn_of_list nodes n hlen hdec
  obtain ⟨S, a1, a2, a3, a4, a5⟩ := tables_exact ty hn z el u Q
  obtain ⟨S', b1, b2, b3, b4, b5⟩ := tables_exact ty hn z el u' Q'
  rw [h] at a1
  rw [h'] at b1
  cases a1
  cases b1
  have h1 : ∀ j : Fin (n + 1), ∀ d : Fin 3, d.1 ≠ 0 → (dof j d).1 % 3 ≠ 0 := by
    intro j d hd
    show (3 * j.1 + d.1) % 3 ≠ 0
    omega
  refine ⟨?_, ?_, ?_⟩
  · rw [a2, b2, List.map_ofFn, List.map_ofFn]
    congr 1
    funext j
    simp only [Function.comp]
    rw [hu _ (h1 j 1 (by decide)), hu _ (h1 j 2 (by decide))]
  · exact forces_cols a3 b3 a4 b4 (fun r => r.2) (fun i => across_forces ty el hu i)
  · intro e he a ha
    obtain ⟨j, rfl⟩ := List.mem_ofFn.1 he
    obtain ⟨d, hd, rfl⟩ : ∃ d : Fin 3, d.1 ≠ 0 ∧ d.1 = a := by
      rcases ha with rfl | rfl
      · exact ⟨1, by decide, rfl⟩
      · exact ⟨2, by decide, rfl⟩
    have c1 := abs_le.1 (listed_close z hz Q T a5 j d)
    have c2 := abs_le.1 (listed_close z hz Q' T' b5 j d)
    rw [hQ _ (h1 j d hd)] at c1
    rw [abs_le]
    constructor <;> linarith [c1.1, c1.2, c2.1, c2.2]

/-- Tables of results that agree along the axis. -/
theorem tables_axial (ty : ElementType) {n : ℕ} (hn : 1 ≤ n) {nodes : List K} (hlen : nodes.length = n + 1)
    (hdec : nodes.Pairwise (· > ·)) (el : Fin n → Elem K) {u u' Q Q' : Fin (3 * n + 3) → K} (hu : Agree Along u u')
    (hQ : Agree Along Q Q') {T T' : Tables K} (h : tables ty nodes el u Q = some T)
    (h' : tables ty nodes el u' Q' = some T') : SameAxial nodes T T' := by
  obtain ⟨z, rfl, hz, -⟩ := fn_of_list nodes n hlen hdec
  obtain ⟨S, a1, a2, a3, a4, a5⟩ := tables_exact ty hn z el u Q
  obtain ⟨S', b1, b2, b3, b4, b5⟩ := tables_exact ty hn z el u' Q'
  rw [h] at a1
  rw [h'] at b1
  cases a1
  cases b1
  have h1 : ∀ j : Fin (n + 1), (dof j 0).1 % 3 = 0 := by
    intro j
    show (3 * j.1 + 0) % 3 = 0
    omega
  refine ⟨?_, ?_, ?_⟩
  · rw [a2, b2, List.map_ofFn, List.map_ofFn]
    congr 1
    funext j
    simp only [Function.comp]
    rw [hu _ (h1 j)]
  · exact forces_cols a3 b3 a4 b4 (fun r => r.1) (fun i => along_forces ty el hu i)
  · intro e he
    obtain ⟨j, rfl⟩ := List.mem_ofFn.1 he
    have k1 : |listed T (z j) 0 - Q (dof j 0)| ≤ 1 / 1000 := listed_close z hz Q T a5 j 0
    have k2 : |listed T' (z j) 0 - Q' (dof j 0)| ≤ 1 / 1000 := listed_close z hz Q' T' b5 j 0
    have c1 := abs_le.1 k1
    have c2 := abs_le.1 k2
    rw [hQ _ (h1 j)] at c1
    rw [abs_le]
    constructor <;> linarith [c1.1, c1.2, c2.1, c2.2]

/-- An analysis without soil in terms of `beam`. -/
theorem solveOn_some {pi : K} {ty : ElementType} {p : Pile.Pile K} {C : Coordinates K} {bcs : List (Cond K)} {T : Tables K}
    (h : solveOn pi ty p C bcs = some T) :
    ∃ (F U : Fin (3 * C.elements.length + 3) → K) (R : Fin (3 * C.elements.length + 3) → Bool)
      (el : Fin C.elements.length → Elem K) (u Q : Fin (3 * C.elements.length + 3) → K)
      (f : Fin C.elements.length → (K × K × K) × (K × K × K)),
      (∃ g, globalForces C.nodes bcs = .ok g ∧
        asVec C.elements.length ((dofList g).map (fun i : ℤ => (i : K))) = some F) ∧
      (∃ g, globalDisp C.nodes bcs = .ok g ∧ asVec C.elements.length (dofList g) = some U) ∧
      (∃ g, globalRestrained C.nodes bcs = .ok g ∧ asVec C.elements.length (dofList g) = some R) ∧
      allSome (fun i : Fin C.elements.length => elemAt pi p C.elements[i.1]) = some el ∧
      beam ty el F U R = some (u, Q, f) ∧ tables ty C.nodes el u Q = some T := by
  unfold solveOn at h
  simp only [Option.bind_eq_bind, Option.bind_eq_some_iff] at h
  obtain ⟨gF, hF, gU, hU, gR, hR, F, hF', U, hU', R, hR', el, hel, ⟨u, Q, f⟩, hb, h⟩ := h
  have toOk : ∀ {ε α : Type} {x : Except ε α} {g : α}, x.toOption = some g → x = .ok g := by
    intro ε α x g hx
    cases x with
    | error e => cases hx
    | ok a => cases hx; rfl
  exact ⟨F, U, R, el, u, Q, f, ⟨gF, toOk hF, hF'⟩, ⟨gU, toOk hU, hU'⟩, ⟨gR, toOk hR, hR'⟩, hel, hb, h⟩

/-- **C71, without soil.** Two analyses without soil of the same Model, with conditions that give the same lateral
loads, moments, prescribed lateral displacements and rotations and lateral supports at the nodes: the deflections,
rotations, shear forces, bending moments and lateral reactions listed are the same, whatever the axial conditions.
Likewise for the axial results. -/
theorem C71_beam {pi : K} {ty : ElementType} {p : Pile.Pile K} {C : Coordinates K} (hn : C.elements ≠ [])
    (hdec : C.nodes.Pairwise (· > ·)) {bcs bcs' : List (Cond K)} {T T' : Tables K}
    (h : solveOn pi ty p C bcs = some T) (h' : solveOn pi ty p C bcs' = some T') :
    (SameNodal Lat C.nodes bcs bcs' → SameLateral C.nodes T T') ∧
    (SameNodal Ax C.nodes bcs bcs' → SameAxial C.nodes T T') := by
  obtain ⟨F, U, R, el, u, Q, f, a1, a2, a3, a4, a5, a6⟩ := solveOn_some h
  obtain ⟨F', U', R', el', u', Q', f', b1, b2, b3, b4, b5, b6⟩ := solveOn_some h'
  rw [a4] at b4
  cases b4
  have hn' : 1 ≤ C.elements.length := List.length_pos_iff.2 hn
  constructor
  · intro hs
    obtain ⟨c0, c1, c2, c3⟩ := read_agree hs a1 a2 a3 b1 b2 b3
    rw [of_lat] at c1 c2 c3
    obtain ⟨d1, d2⟩ := beam_agree ty el Across (Or.inl rfl) c1 c2 c3 a5 b5
    exact tables_lateral ty hn' c0 hdec el d1 d2 a6 b6
  · intro hs
    obtain ⟨c0, c1, c2, c3⟩ := read_agree hs a1 a2 a3 b1 b2 b3
    rw [of_ax] at c1 c2 c3
    obtain ⟨d1, d2⟩ := beam_agree ty el Along (Or.inr rfl) c1 c2 c3 a5 b5
    exact tables_axial ty hn' c0 hdec el d1 d2 a6 b6

/-! ### calls -/

/-- Two calls that differ at most in their axial arguments. -/
inductive SameLatCall : Call K → Call K → Prop
  | pointload (e : K) (Py Mx Pz Pz' : Option K) : SameLatCall (.pointload e Py Pz Mx) (.pointload e Py Pz' Mx)
  | pointdisplacement (e : K) (Ty Rx Tz Tz' : Option K) :
      SameLatCall (.pointdisplacement e Ty Tz Rx) (.pointdisplacement e Ty Tz' Rx)
  | support (e : K) (Ty Rx Tz Tz' : Option Bool) : SameLatCall (.support e Ty Tz Rx) (.support e Ty Tz' Rx)

/-- Two calls with the same axial arguments. -/
inductive SameAxCall : Call K → Call K → Prop
  | pointload (e : K) (Py Mx Py' Mx' Pz : Option K) : SameAxCall (.pointload e Py Pz Mx) (.pointload e Py' Pz Mx')
  | pointdisplacement (e : K) (Ty Rx Ty' Rx' Tz : Option K) :
      SameAxCall (.pointdisplacement e Ty Tz Rx) (.pointdisplacement e Ty' Tz Rx')
  | support (e : K) (Ty Rx Ty' Rx' Tz : Option Bool) : SameAxCall (.support e Ty Tz Rx) (.support e Ty' Tz Rx')

/-- Two conditions of the same kind at the same elevation with the same values for the axes in `X`. -/
def SameCond (X : Axis → Prop) (c c' : Cond K) : Prop :=
  c.cls = c'.cls ∧ c.elevation = c'.elevation ∧ ∀ a, X a → c.get a = c'.get a

theorem isAt_same {X : Axis → Prop} {c c' : Cond K} (h : SameCond X c c') (cls : Cls) (e : K) :
    c.isAt cls e = c'.isAt cls e := by
  unfold Cond.isAt
  rw [h.1, h.2.1]

theorem overwrite_get (c : Cond K) (v : Axis → Option (Val K)) (a : Axis) :
    (c.overwrite (v .x) (v .y) (v .z)).get a = if (v a).isSome then v a else c.get a := by
  cases a <;> rfl

theorem updateBc_same {X : Axis → Prop} {l l' : List (Cond K)} (h : List.Forall₂ (SameCond X) l l') (e : K) (cls : Cls)
    (v v' : Axis → Option (Val K)) (hv : ∀ a, X a → v a = v' a) :
    List.Forall₂ (SameCond X) (updateBc l e (v .x) (v .y) (v .z) cls) (updateBc l' e (v' .x) (v' .y) (v' .z) cls) := by
  have hlen : (l.filter (fun c => c.isAt cls e)).length = (l'.filter (fun c => c.isAt cls e)).length := by
    induction h with
    | nil => rfl
    | cons hc _ ih => simp only [List.filter_cons, isAt_same hc]; split <;> simp [ih]
  unfold updateBc
  rw [hlen]
  split
  · rw [List.forall₂_map_left_iff, List.forall₂_map_right_iff]
    refine h.imp (fun c c' hc => ?_)
    rw [isAt_same hc]
    split
    · refine ⟨hc.1, hc.2.1, fun a ha => ?_⟩
      rw [overwrite_get, overwrite_get, hv a ha, hc.2.2 a ha]
    · exact hc
  · refine List.rel_append h (.cons ⟨rfl, rfl, fun a ha => ?_⟩ .nil)
    have := hv a ha
    cases a <;> exact this

theorem run_same {X : Axis → Prop} {R : Call K → Call K → Prop}
    (hR : ∀ c c', R c c' → ∀ l l' : List (Cond K), List.Forall₂ (SameCond X) l l' →
      List.Forall₂ (SameCond X) (step l c) (step l' c')) {h h' : List (Call K)} (hh : List.Forall₂ R h h')
    {l l' : List (Cond K)} (hl : List.Forall₂ (SameCond X) l l') :
    List.Forall₂ (SameCond X) (run l h) (run l' h') := by
  unfold run
  induction hh generalizing l l' with
  | nil => exact hl
  | cons hc _ ih => exact ih (hR _ _ hc _ _ hl)

theorem step_lat (c c' : Call K) (hc : SameLatCall c c') (l l' : List (Cond K)) (h : List.Forall₂ (SameCond Lat) l l') :
    List.Forall₂ (SameCond Lat) (step l c) (step l' c') := by
  cases hc with
  | pointload e Py Mx Pz Pz' =>
    exact updateBc_same h e .force
      (fun a => match a with | .x => Mx.map .num | .y => Py.map .num | .z => Pz.map .num)
      (fun a => match a with | .x => Mx.map .num | .y => Py.map .num | .z => Pz'.map .num)
      (fun a ha => by cases a <;> first | rfl | exact absurd rfl ha)
  | pointdisplacement e Ty Rx Tz Tz' =>
    exact updateBc_same h e .displacement
      (fun a => match a with | .x => Rx.map .num | .y => Ty.map .num | .z => Tz.map .num)
      (fun a => match a with | .x => Rx.map .num | .y => Ty.map .num | .z => Tz'.map .num)
      (fun a ha => by cases a <;> first | rfl | exact absurd rfl ha)
  | support e Ty Rx Tz Tz' =>
    exact updateBc_same h e .fixation
      (fun a => match a with | .x => Rx.map .flag | .y => Ty.map .flag | .z => Tz.map .flag)
      (fun a => match a with | .x => Rx.map .flag | .y => Ty.map .flag | .z => Tz'.map .flag)
      (fun a ha => by cases a <;> first | rfl | exact absurd rfl ha)

theorem step_ax (c c' : Call K) (hc : SameAxCall c c') (l l' : List (Cond K)) (h : List.Forall₂ (SameCond Ax) l l') :
    List.Forall₂ (SameCond Ax) (step l c) (step l' c') := by
  cases hc with
  | pointload e Py Mx Py' Mx' Pz =>
    exact updateBc_same h e .force
      (fun a => match a with | .x => Mx.map .num | .y => Py.map .num | .z => Pz.map .num)
      (fun a => match a with | .x => Mx'.map .num | .y => Py'.map .num | .z => Pz.map .num)
      (fun a ha => by cases ha; rfl)
  | pointdisplacement e Ty Rx Ty' Rx' Tz =>
    exact updateBc_same h e .displacement
      (fun a => match a with | .x => Rx.map .num | .y => Ty.map .num | .z => Tz.map .num)
      (fun a => match a with | .x => Rx'.map .num | .y => Ty'.map .num | .z => Tz.map .num)
      (fun a ha => by cases ha; rfl)
  | support e Ty Rx Ty' Rx' Tz =>
    exact updateBc_same h e .fixation
      (fun a => match a with | .x => Rx.map .flag | .y => Ty.map .flag | .z => Tz.map .flag)
      (fun a => match a with | .x => Rx'.map .flag | .y => Ty'.map .flag | .z => Tz.map .flag)
      (fun a ha => by cases ha; rfl)

theorem apply_same {β : Type} {X : Axis → Prop} (store : Val K → β) (nodes : List K) (cls : Cls)
    {l l' : List (Cond K)} (h : List.Forall₂ (SameCond X) l l') (g g' : Nodal β) (a : Axis) (ha : X a)
    (hg : g.get a = g'.get a) : (applyBc store nodes g l cls).get a = (applyBc store nodes g' l' cls).get a := by
  unfold applyBc
  induction h generalizing g g' with
  | nil => exact hg
  | cons hc _ ih =>
    rw [List.foldl_cons, List.foldl_cons]
    refine ih _ _ ?_
    rw [applyOne_get, applyOne_get, hc.1, hc.2.1, hc.2.2 a ha, hg]

theorem nodal_same {X : Axis → Prop} (nodes : List K) {l l' : List (Cond K)} (h : List.Forall₂ (SameCond X) l l') :
    SameNodal X nodes l l' := by
  refine ⟨?_, ?_, ?_⟩
  · intro g g' hg hg' a ha
    unfold globalForces at hg hg'
    cases hv : validateBc l .force with
    | error e => rw [hv] at hg; cases hg
    | ok u =>
      cases hv' : validateBc l' .force with
      | error e => rw [hv'] at hg'; cases hg'
      | ok u' =>
        rw [hv] at hg
        rw [hv'] at hg'
        cases hg
        cases hg'
        exact apply_same _ _ _ h _ _ a ha rfl
  · intro g g' hg hg' a ha
    unfold globalDisp at hg hg'
    cases hv : validateBc l .displacement with
    | error e => rw [hv] at hg; cases hg
    | ok u =>
      cases hv' : validateBc l' .displacement with
      | error e => rw [hv'] at hg'; cases hg'
      | ok u' =>
        rw [hv] at hg
        rw [hv'] at hg'
        cases hg
        cases hg'
        exact apply_same _ _ _ h _ _ a ha rfl
  · intro g g' hg hg' a ha
    unfold globalRestrained at hg hg'
    cases hv : validateBc l .fixation with
    | error e => rw [hv] at hg; cases hg
    | ok u =>
      cases hv' : validateBc l' .fixation with
      | error e => rw [hv'] at hg'; cases hg'
      | ok u' =>
        rw [hv] at hg
        rw [hv'] at hg'
        cases hg
        cases hg'
        exact apply_same _ _ _ h _ _ a ha rfl

/-- **C71, calls.** Two histories of calls that differ at most in the axial arguments (`Pz`, `Tz`) leave the same lateral
loads, displacements and supports at the nodes of any mesh; two histories with the same axial arguments leave the same
axial ones. -/
theorem C71_calls (nodes : List K) (h h' : List (Call K)) :
    (List.Forall₂ SameLatCall h h' → SameNodal Lat nodes (run [] h) (run [] h')) ∧
    (List.Forall₂ SameAxCall h h' → SameNodal Ax nodes (run [] h) (run [] h')) :=
  ⟨fun hh => nodal_same nodes (run_same step_lat hh .nil), fun hh => nodal_same nodes (run_same step_ax hh .nil)⟩

/-- **C71, from the calls to the tables, without soil.** -/
theorem C71_solve {pi : K} {ty : ElementType} {p : Pile.Pile K} {C : Coordinates K} (hn : C.elements ≠ [])
    (hdec : C.nodes.Pairwise (· > ·)) (h h' : List (Call K)) {T T' : Tables K}
    (hT : solveOn pi ty p C (run [] h) = some T) (hT' : solveOn pi ty p C (run [] h') = some T') :
    (List.Forall₂ SameLatCall h h' → SameLateral C.nodes T T') ∧
    (List.Forall₂ SameAxCall h h' → SameAxial C.nodes T T') :=
  ⟨fun hh => (C71_beam hn hdec hT hT').1 ((C71_calls C.nodes h h').1 hh),
    fun hh => (C71_beam hn hdec hT hT').2 ((C71_calls C.nodes h h').2 hh)⟩

end

/-! ### a case that meets the hypotheses -/

/-- Calls on the pile `pileE`: fixed at the tip, loaded across the axis at the head, and with axial load `P`. -/
def callsE (P : Option ℚ) : List (Call ℚ) :=
  [.support (-10) (some true) (some true) (some true), .pointload 0 (some 100) P none]

theorem solvedP (P : Option ℚ) (hP : P = none ∨ P = some (-500)) :
    ∃ T, solveOn (22 / 7) .timoshenko pileE nodesE (run [] (callsE P)) = some T := by
  rw [← Option.ne_none_iff_exists']
  refine (C20_tables (22 / 7) (by norm_num) .timoshenko 78 210000000 (3 / 10) pileE (by decide +kernel)
    (fun _ => by norm_num) 0 (-10) stackE builtE nodesE meshE _).2 ⟨?_, ?_, ?_⟩
  · intro cls
    rcases hP with rfl | rfl <;> cases cls <;> decide +kernel
  · exact ⟨5, by decide, Or.inl (by rcases hP with rfl | rfl <;> decide +kernel)⟩
  · exact ⟨5, by decide, Or.inl (by rcases hP with rfl | rfl <;> decide +kernel),
      Or.inl ⟨5, by decide, Or.inl (by rcases hP with rfl | rfl <;> decide +kernel)⟩⟩

/-- An axial load of -500 at the head leaves the lateral columns unchanged and shows in the axial ones. -/
example : ∃ T T', solveOn (22 / 7) .timoshenko pileE nodesE (run [] (callsE none)) = some T ∧
    solveOn (22 / 7) .timoshenko pileE nodesE (run [] (callsE (some (-500)))) = some T' ∧
    SameLateral nodesE.nodes T T' ∧ ¬ SameNodal Ax nodesE.nodes (run [] (callsE none)) (run [] (callsE (some (-500)))) := by
  obtain ⟨T, hT⟩ := solvedP none (.inl rfl)
  obtain ⟨T', hT'⟩ := solvedP (some (-500)) (.inr rfl)
  refine ⟨T, T', hT, hT', (C71_solve (by simp [nodesE]) meshE.dec _ _ hT hT').1
    (.cons (.support _ _ _ _ _) (.cons (.pointload _ _ _ _ _) .nil)), fun h => ?_⟩
  have := h.loads ⟨[0, 0, 0, 0, 0, 0], [100, 0, 0, 0, 0, 0], [0, 0, 0, 0, 0, 0]⟩
    ⟨[0, 0, 0, 0, 0, 0], [100, 0, 0, 0, 0, 0], [-500, 0, 0, 0, 0, 0]⟩ (by decide +kernel) (by decide +kernel) .z rfl
  revert this
  decide

/-! ### in soil -/

section
open OpenPile.SoilAnalysis OpenPile.Assemble OpenPile.Props.SoilAnalysis

theorem component_agree {n : ℕ} {u u' : Fin (3 * n + 3) → ℝ} (h : Agree Across u u') (s : Fin 3) (hs : s.1 ≠ 0) :
    component u s = component u' s := by
  unfold component
  congr 1
  funext j
  refine h _ ?_
  show (3 * j.1 + s.1) % 3 ≠ 0
  omega

/-- **C71, tables in soil.** Two Models of the same pile on the same mesh whose lateral springs agree (axial springs may
differ), with conditions that give the same lateral loads and supports at the nodes.  If both analyses take the same
number of iterations, the tables agree in deflections, rotations, shear forces, bending moments, lateral reactions and in
the mobilisation of the lateral and rotational springs and of the base.  Missing: other numbers of iterations, see
`C71_violated_iterations`. -/
theorem C71_soil_lateral_partial {ty : ElementType} {p : Pile.Pile ℝ} {C : Coordinates ℝ} (hn : C.elements ≠ [])
    (hdec : C.nodes.Pairwise (· > ·)) {w w' : Switches} {A A' : Arrays}
    (hs : SameAcross (springsOf w A C.elements.length) (springsOf w' A' C.elements.length))
    {bcs bcs' : List (Cond ℝ)} (hb : SameNodal Lat C.nodes bcs bcs') {t t' : SoilTables}
    (h : solveSoilOn ty p C w A bcs 100 = some (.numbers t)) (h' : solveSoilOn ty p C w' A' bcs' 100 = some (.numbers t'))
    (hit : t.iterations = t'.iterations) :
    SameLateral C.nodes t.toTables t'.toTables ∧ t.mob = t'.mob ∧ t.hbMob = t'.hbMob ∧ t.mbMob = t'.mbMob := by
  obtain ⟨F, U, R, el, d, Q, tolSq, resSq, a1, a2, a3, a4, a5, a6, a7, a8, a9, -⟩ := solveSoilOn_numbers (by norm_num) h
  obtain ⟨F', U', R', el', d', Q', tolSq', resSq', b1, b2, b3, b4, b5, b6, b7, b8, b9, -⟩ :=
    solveSoilOn_numbers (by norm_num) h'
  have he : el = el' := by
    funext i
    have := a4 i
    rw [b4 i] at this
    exact (Option.some.inj this).symm
  subst he
  obtain ⟨c0, c1, c2, c3⟩ := read_agree hb a1 a2 a3 b1 b2 b3
  rw [of_lat] at c1 c2 c3
  rw [hit] at a5
  obtain ⟨d1, d2⟩ := C71_lateral_partial ty el _ _ hs F F' U U' R R' c1 c2 c3 _ _ _ d Q d' Q' _ _ _ _ a5 b5
  have hhb : A.hb = A'.hb := hs.hb
  have hmb : A.mb = A'.mb := hs.mb
  refine ⟨tables_lateral ty (List.length_pos_iff.2 hn) c0 hdec el d1 d2 a6 b6, ?_, ?_, ?_⟩
  · rw [component_agree d1 1 (by decide), component_agree d1 2 (by decide), hs.py, hs.mt, b7] at a7
    exact (Option.some.inj a7).symm
  · rw [hhb, d1 ⟨3 * C.elements.length + 1, by omega⟩ (show (3 * C.elements.length + 1) % 3 ≠ 0 by omega), b8] at a8
    exact (Option.some.inj a8).symm
  · rw [hmb, d1 ⟨3 * C.elements.length + 2, by omega⟩ (show (3 * C.elements.length + 2) % 3 ≠ 0 by omega), b9] at a9
    exact (Option.some.inj a9).symm

/-- **C71, tables in soil, axial direction.** Likewise settlements, normal forces and axial reactions. -/
theorem C71_soil_axial_partial {ty : ElementType} {p : Pile.Pile ℝ} {C : Coordinates ℝ} (hn : C.elements ≠ [])
    (hdec : C.nodes.Pairwise (· > ·)) {w w' : Switches} {A A' : Arrays}
    (hs : SameAlong (springsOf w A C.elements.length) (springsOf w' A' C.elements.length))
    {bcs bcs' : List (Cond ℝ)} (hb : SameNodal Ax C.nodes bcs bcs') {t t' : SoilTables}
    (h : solveSoilOn ty p C w A bcs 100 = some (.numbers t)) (h' : solveSoilOn ty p C w' A' bcs' 100 = some (.numbers t'))
    (hit : t.iterations = t'.iterations) : SameAxial C.nodes t.toTables t'.toTables := by
  obtain ⟨F, U, R, el, d, Q, tolSq, resSq, a1, a2, a3, a4, a5, a6, -⟩ := solveSoilOn_numbers (by norm_num) h
  obtain ⟨F', U', R', el', d', Q', tolSq', resSq', b1, b2, b3, b4, b5, b6, -⟩ :=
    solveSoilOn_numbers (by norm_num) h'
  have he : el = el' := by
    funext i
    have := a4 i
    rw [b4 i] at this
    exact (Option.some.inj this).symm
  subst he
  obtain ⟨c0, c1, c2, c3⟩ := read_agree hb a1 a2 a3 b1 b2 b3
  rw [of_ax] at c1 c2 c3
  rw [hit] at a5
  obtain ⟨d1, d2⟩ := C71_axial_partial ty ty el el (fun _ => ⟨rfl, rfl, rfl⟩) _ _ hs F F' U U' R R' c1 c2 c3 _ _ _ d Q d' Q'
    _ _ _ _ a5 b5
  exact tables_axial ty (List.length_pos_iff.2 hn) c0 hdec el d1 d2 a6 b6

end

end OpenPile.Props.Decouple

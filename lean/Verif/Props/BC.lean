/-
Properties C12, C13, C14: boundary conditions.
-/
import Verif.Lemmas.BC
import Mathlib.Tactic.Linarith
import Mathlib.Data.List.Pairwise

namespace OpenPile.Props.BC
open OpenPile.BC OpenPile.Spec.BC

variable {K : Type} [Field K] [LinearOrder K] [FloorRing K]

/-! ## C12 last write wins -/

/-- **C12.** After any history of `set_*` calls on a model without boundary conditions, and
for every kind and elevation: if no call was about them there is no such condition, otherwise
there is exactly one and each of its axes carries the last value given for it. -/
theorem C12_last_write_wins (h : List (Call K)) (cls : Cls) (e : K) :
    let found := (run [] h).filter (fun c => decide (c.cls = cls) && decide (c.elevation = e))
    (about h cls e = [] → found = []) ∧
    (about h cls e ≠ [] → ∃ c, found = [c] ∧ ∀ a, c.get a = expected h cls e a) := by
  have hf : ∀ l : List (Cond K),
      l.filter (fun c => decide (c.cls = cls) && decide (c.elevation = e)) = at' l cls e := by
    intro l
    apply List.filter_congr
    intro c _
    simp only [Cond.isAt]
    exact Bool.and_comm _ _
  simp only [hf]
  rcases run_at_zero h [] cls e rfl with ⟨h1, h2⟩ | ⟨h1, c, h2, _, _, h5⟩
  · exact ⟨fun _ => h2, fun hne => absurd h1 hne⟩
  · exact ⟨fun he => absurd he h1, fun _ => ⟨c, h2, h5⟩⟩

/-- Non-trivial instance: two loads at the same place, the second overwrites `Py` and keeps `Mx`. -/
example : (run ([] : List (Cond ℚ)) [.pointload (-1) (some 5) none (some 7), .support (-1) (some true) none none,
      .pointload (-1) (some 6) none none]).filter
        (fun c => decide (c.cls = .force) && decide (c.elevation = -1))
    = [{ cls := .force, elevation := -1, x := some (.num 7), y := some (.num 6), z := none }] := by
  decide +kernel

/-- **C12, isolation.** From any state, a history without a call about a kind and elevation
leaves the conditions of that kind and elevation as they are. -/
theorem C12_isolated (bcs : List (Cond K)) (h : List (Call K)) (cls : Cls) (e : K)
    (hh : ∀ k ∈ h, ¬ (kind k = cls ∧ elev k = e)) :
    (run bcs h).filter (fun c => c.isAt cls e) = bcs.filter (fun c => c.isAt cls e) := by
  induction h generalizing bcs with
  | nil => rfl
  | cons k h ih =>
    have hrun : run bcs (k :: h) = run (step bcs k) h := rfl
    rw [hrun, ih _ (fun k' hk' => hh k' (List.mem_cons_of_mem _ hk')), step_eq]
    exact at'_update_other _ _ _ _ _ _ _ _ (hh k (List.mem_cons_self ..))

example : ∃ (bcs : List (Cond ℚ)) (h : List (Call ℚ)), bcs ≠ [] ∧ h ≠ [] ∧
    ∀ k ∈ h, ¬ (kind k = .force ∧ elev k = 0) :=
  ⟨[{ cls := .force, elevation := 0, y := some (.num 3) }], [.support 0 (some true) none none],
    by simp, by simp, by simp [kind]⟩

/-- **C12, models created with conditions.** If a model is created with at most one condition
of a kind at an elevation, later calls update that condition axis by axis. -/
theorem C12_overwrites_existing (bcs : List (Cond K)) (h : List (Call K)) (cls : Cls) (e : K) (c₀ : Cond K)
    (h0 : bcs.filter (fun c => c.isAt cls e) = [c₀]) :
    ∃ c, (run bcs h).filter (fun c => c.isAt cls e) = [c] ∧
      ∀ a, c.get a = lastWrite (c₀.get a) ((about h cls e).map (fun k => arg k a)) := by
  obtain ⟨c, h1, _, _, h4⟩ := run_at_one h bcs cls e c₀ h0
  exact ⟨c, h1, h4⟩

example : ([{ cls := .force, elevation := 0, y := some (.num 3) }] : List (Cond ℚ)).filter
    (fun c => c.isAt .force 0) = [{ cls := .force, elevation := 0, y := some (.num 3) }] := by
  decide +kernel

/-- **C12, at most one.** Starting from an empty model, no history ever produces two
conditions of the same kind at the same elevation. -/
theorem C12_at_most_one (h : List (Call K)) :
    (run [] h).Pairwise (fun c d => ¬ (c.cls = d.cls ∧ c.elevation = d.elevation)) := by
  rw [List.pairwise_iff_forall_sublist]
  rintro c d hsub ⟨h1, h2⟩
  have hs := hsub.filter (fun x => x.isAt c.cls c.elevation)
  have e1 : c.isAt c.cls c.elevation = true := by simp
  have e2 : d.isAt c.cls c.elevation = true := by simp [h1, h2]
  simp only [List.filter_cons, e1, e2, if_true, List.filter_nil] at hs
  have hlen := hs.length_le
  rcases run_at_zero h [] c.cls c.elevation rfl with ⟨_, h3⟩ | ⟨_, x, h3, _⟩ <;>
    unfold at' at h3 <;> rw [h3] at hlen <;> simp at hlen

/-! ## C13 conflicts -/

/-- **C13.** `validate_bc` raises exactly when two conditions of the class share the elevation
and differ on some axis. -/
theorem C13_raises_iff_conflict (bcs : List (Cond K)) (cls : Cls) :
    (∃ flags, validateBc bcs cls = .error flags) ↔
      ∃ c ∈ bcs, ∃ d ∈ bcs, c.cls = cls ∧ ∃ a, Conflict c d a := by
  have hiff : (∃ flags, validateBc bcs cls = .error flags) ↔
      ∃ a, axisConflict bcs cls a = true := by
    unfold validateBc
    constructor
    · rintro ⟨fl, hfl⟩
      simp only at hfl
      split at hfl
      · rename_i hne
        obtain ⟨a, ha⟩ := List.exists_mem_of_ne_nil _ hne
        exact ⟨a, (List.mem_filter.1 ha).2⟩
      · cases hfl
    · rintro ⟨a, ha⟩
      refine ⟨_, if_pos ?_⟩
      apply List.ne_nil_of_mem (a := a)
      rw [List.mem_filter]
      exact ⟨by cases a <;> simp, ha⟩
  rw [hiff]
  constructor
  · rintro ⟨a, ha⟩
    obtain ⟨c, hc, d, hd, h1, h2, h3, h4⟩ := (axisConflict_iff _ _ _).1 ha
    exact ⟨c, hc, d, hd, h1, a, h1.trans h2.symm, h3, h4⟩
  · rintro ⟨c, hc, d, hd, h1, a, h2, h3, h4⟩
    exact ⟨a, (axisConflict_iff _ _ _).2 ⟨c, hc, d, hd, h1, h2.symm.trans h1, h3, h4⟩⟩

/-- The flagged axes are exactly the conflicting ones. -/
theorem C13_flags_exact (bcs : List (Cond K)) (cls : Cls) (flags : List Axis)
    (hv : validateBc bcs cls = .error flags) (a : Axis) :
    a ∈ flags ↔ ∃ c ∈ bcs, ∃ d ∈ bcs, c.cls = cls ∧ Conflict c d a := by
  have hfl : flags = [Axis.x, Axis.y, Axis.z].filter (fun a => axisConflict bcs cls a) := by
    unfold validateBc at hv
    simp only at hv
    split at hv
    · exact (Except.error.inj hv).symm
    · cases hv
  rw [hfl, List.mem_filter, axisConflict_iff]
  constructor
  · rintro ⟨_, c, hc, d, hd, h1, h2, h3, h4⟩
    exact ⟨c, hc, d, hd, h1, h1.trans h2.symm, h3, h4⟩
  · rintro ⟨c, hc, d, hd, h1, h2, h3, h4⟩
    exact ⟨by cases a <;> simp, c, hc, d, hd, h1, h2.symm.trans h1, h3, h4⟩

/-- A conflict is reachable: two conditions given at construction. -/
example : ∃ flags, validateBc (K := ℚ)
    [{ cls := .force, elevation := 0, y := some (.num 3) },
     { cls := .force, elevation := 0, y := some (.num 4) }] .force = .error flags :=
  ⟨[.y], by decide +kernel⟩

/-- **C13, histories.** Conditions built through the `set_*` methods never conflict, so
global forces, displacements and restraints can always be computed. -/
theorem C13_histories_never_raise (h : List (Call K)) (cls : Cls) :
    validateBc (run [] h) cls = .ok () := by
  by_contra hne
  have herr : ∃ flags, validateBc (run [] h) cls = .error flags := by
    cases hv : validateBc (run [] h) cls with
    | ok u => exact absurd hv hne
    | error f => exact ⟨f, rfl⟩
  obtain ⟨c, hc, d, hd, _, a, h2, h3, h4⟩ := (C13_raises_iff_conflict _ _).1 herr
  have hcd : c ≠ d := by rintro rfl; exact h4 rfl
  have hp := C12_at_most_one h
  have : Std.Symm (fun c d : Cond K => ¬ (c.cls = d.cls ∧ c.elevation = d.elevation)) :=
    ⟨fun _ _ hxy ⟨p, q⟩ => hxy ⟨p.symm, q.symm⟩⟩
  exact hp.forall hc hd hcd ⟨h2, h3⟩

/-! ## C14 one node per condition -/

theorem near_iff (n e : K) : isClose n e = true ↔ Near n e := by
  unfold isClose Near
  rw [decide_eq_true_eq, one_div_mul_eq_div]

/-- The node used for an elevation is the uppermost node within tolerance; no node is used
iff no node is within tolerance. -/
theorem C14_node_choice (nodes : List K) (e : K) :
    (∀ i, nodeIdx nodes e = some i ↔ ActsAt nodes e i) ∧
    (nodeIdx nodes e = none ↔ ∀ n ∈ nodes, ¬ Near n e) := by
  constructor
  · intro i
    unfold nodeIdx ActsAt
    rw [List.findIdx?_eq_some_iff_getElem]
    constructor
    · rintro ⟨hi, h1, h2⟩
      refine ⟨⟨nodes[i], by simp [hi], (near_iff _ _).1 h1⟩, fun j hj n hn => ?_⟩
      have := h2 j hj
      rw [List.getElem?_eq_some_iff] at hn
      obtain ⟨hj', rfl⟩ := hn
      rwa [near_iff] at this
    · rintro ⟨⟨n, hn, h1⟩, h2⟩
      rw [List.getElem?_eq_some_iff] at hn
      obtain ⟨hi, rfl⟩ := hn
      refine ⟨hi, (near_iff _ _).2 h1, fun j hj => ?_⟩
      rw [near_iff]
      exact h2 j hj _ (by simp [hj.trans hi])
  · unfold nodeIdx
    rw [List.findIdx?_eq_none_iff]
    refine forall₂_congr fun n _ => ?_
    rw [← near_iff, Bool.not_eq_true]

/-- The write a condition performs at a node, in the vocabulary of the specification. -/
theorem writeTo_eq_some (nodes : List K) (cls : Cls) (i : ℕ) (a : Axis) (c : Cond K) (v : Val K) :
    writeTo nodes cls i a c = some v ↔
      c.cls = cls ∧ ActsAt nodes c.elevation i ∧ c.get a = some v ∧ Effective v := by
  unfold writeTo
  have hch := (C14_node_choice nodes c.elevation).1 i
  have : ∀ v : Val K, v.truthy = true ↔ Effective v := by
    rintro (b | q) <;> simp [Val.truthy, Effective]
  split
  · rename_i h
    rw [Option.filter_eq_some_iff, this]
    tauto
  · rename_i h
    simp only [reduceCtorEq, false_iff]
    tauto

/-- **C14.** The nodal value of axis `a` at node `i` after applying a list of conditions is
the (converted) value of the last condition of that class that acts at node `i` with an
effective value on axis `a`; if there is none the node keeps its initial value. -/
theorem C14_nodal_value {β : Type} (store : Val K → β) (nodes : List K) (g : Nodal β)
    (bcs : List (Cond K)) (cls : Cls) (a : Axis) (i : ℕ) (hi : i < (g.get a).length) :
    (∀ c v l₁ l₂, bcs = l₁ ++ c :: l₂ → c.cls = cls → ActsAt nodes c.elevation i →
        c.get a = some v → Effective v →
        (∀ d ∈ l₂, d.cls = cls → ActsAt nodes d.elevation i → ∀ w, d.get a = some w →
          ¬ Effective w) →
        ((applyBc store nodes g bcs cls).get a)[i]? = some (store v)) ∧
    ((∀ d ∈ bcs, d.cls = cls → ActsAt nodes d.elevation i → ∀ w, d.get a = some w →
          ¬ Effective w) →
        ((applyBc store nodes g bcs cls).get a)[i]? = (g.get a)[i]?) := by
  have hnone : ∀ l : List (Cond K), (∀ d ∈ l, d.cls = cls → ActsAt nodes d.elevation i → ∀ w,
      d.get a = some w → ¬ Effective w) → ∀ init,
      lastWrite init (l.map (writeTo nodes cls i a)) = init := by
    intro l hl
    induction l with
    | nil => intro init; rfl
    | cons d l ih =>
      intro init
      have : writeTo nodes cls i a d = none := by
        cases hw : writeTo nodes cls i a d with
        | none => rfl
        | some v =>
          obtain ⟨h1, h2, h3, h4⟩ := (writeTo_eq_some _ _ _ _ _ _).1 hw
          exact absurd h4 (hl d (List.mem_cons_self ..) h1 h2 v h3)
      rw [List.map_cons, this]
      exact ih (fun d hd => hl d (List.mem_cons_of_mem _ hd)) init
  constructor
  · rintro c v l₁ l₂ rfl h1 h2 h3 h4 h5
    rw [applyBc_entry _ _ _ _ _ _ _ hi, List.map_append, List.map_cons,
      (writeTo_eq_some _ _ _ _ _ _).2 ⟨h1, h2, h3, h4⟩, lastWrite_append]
    simp only [lastWrite]
    rw [hnone l₂ h5]
  · intro h
    rw [applyBc_entry _ _ _ _ _ _ _ hi, hnone bcs h]

/-- Non-trivial instance: a load of 5 kN at -1 m acts on the second of three nodes. -/
example : ActsAt ([0, -1, -2] : List ℚ) (-1) 1 ∧ Effective (.num (5 : ℚ)) ∧
    (globalForces ([0, -1, -2] : List ℚ) (run [] [.pointload (-1) (some 5) none none])).toOption.map
      (fun g => g.y) = some [0, 5, 0] := by
  refine ⟨((C14_node_choice [0, -1, -2] (-1)).1 1).1 (by decide +kernel), ?_, by decide +kernel⟩
  simp [Effective]

/-- Common part of the three statements below. -/
theorem C14_history_value {β : Type} (store : Val K → β) (nodes : List K) (h : List (Call K)) (g : Nodal β)
    (cls : Cls) (e : K) (v : Val K) (i : ℕ) (a : Axis) (hlen : (g.get a).length = nodes.length)
    (hacts : ActsAt nodes e i) (hv : Effective v) (hexp : expected h cls e a = some v)
    (honly : ∀ k ∈ h, kind k = cls → ActsAt nodes (elev k) i → elev k = e) :
    ((applyBc store nodes g (run [] h) cls).get a)[i]? = some (store v) := by
  have hacts' := hacts
  obtain ⟨⟨n, hn, _⟩, _⟩ := hacts
  have hi : i < nodes.length := (List.getElem?_eq_some_iff.1 hn).1
  have hne : about h cls e ≠ [] := by
    intro h0; simp [expected, h0, lastWrite] at hexp
  obtain ⟨c, hc, hca⟩ := (C12_last_write_wins h cls e).2 hne
  have hcmem : c ∈ run [] h ∧ c.cls = cls ∧ c.elevation = e := by
    have : c ∈ [c] := List.mem_singleton.2 rfl
    rw [← hc, List.mem_filter] at this
    simpa using this
  obtain ⟨l₁, l₂, hl⟩ := List.append_of_mem hcmem.1
  refine (C14_nodal_value store nodes g (run [] h) cls a i (by omega)).1 c v l₁ l₂ hl
    hcmem.2.1 (by rw [hcmem.2.2]; exact hacts') (by rw [hca a, hexp]) hv ?_
  intro d hd hd1 hd2 w hw
  exfalso
  -- `d` comes from some call about its kind and elevation, hence sits at elevation `e`
  have hdm : d ∈ run [] h := by rw [hl]; simp [hd]
  have hde : d.elevation = e := by
    by_cases hab : about h cls d.elevation = []
    · have := (C12_last_write_wins h cls d.elevation).1 hab
      have hdf : d ∈ (run [] h).filter (fun c => decide (c.cls = cls) &&
          decide (c.elevation = d.elevation)) := by
        rw [List.mem_filter]; simp [hdm, hd1]
      rw [this] at hdf; simp at hdf
    · obtain ⟨k, hk⟩ := List.exists_mem_of_ne_nil _ hab
      rw [about, List.mem_filter] at hk
      simp only [Bool.and_eq_true, decide_eq_true_eq] at hk
      rw [← hk.2.2]
      exact honly k hk.1 hk.2.1 (by rw [hk.2.2]; exact hd2)
  have hp := C12_at_most_one h
  rw [hl, List.pairwise_append] at hp
  exact (List.pairwise_cons.1 hp.2.1).1 d hd ⟨hcmem.2.1.trans hd1.symm, hcmem.2.2.trans hde.symm⟩

/-- **C14, displacements.** After any history, a prescribed displacement reaches its node
unchanged, provided no other prescribed elevation falls on the same node. -/
theorem C14_displacement_exact (nodes : List K) (h : List (Call K)) (e q : K) (i : ℕ) (a : Axis)
    (hacts : ActsAt nodes e i) (hq : q ≠ 0) (hexp : expected h .displacement e a = some (.num q))
    (honly : ∀ k ∈ h, kind k = .displacement → ActsAt nodes (elev k) i → elev k = e) :
    ∃ g, globalDisp nodes (run [] h) = .ok g ∧ (g.get a)[i]? = some q := by
  unfold globalDisp
  rw [C13_histories_never_raise]
  exact ⟨_, rfl, C14_history_value storeFloat nodes h _ .displacement e (.num q) i a
    (by cases a <;> simp [Nodal.get]) hacts hq hexp honly⟩

example : (globalDisp ([0, -1] : List ℚ) (run [] [.pointdisplacement 0 (some (1/10)) none none])).toOption.map
    (fun g => g.y) = some [1/10, 0] := by decide +kernel

/-- **C14, supports.** After any history, an axis that was last set to `True` is restrained at
its node. -/
theorem C14_support_exact (nodes : List K) (h : List (Call K)) (e : K) (i : ℕ) (a : Axis)
    (hacts : ActsAt nodes e i) (hexp : expected h .fixation e a = some (.flag true))
    (honly : ∀ k ∈ h, kind k = .fixation → ActsAt nodes (elev k) i → elev k = e) :
    ∃ g, globalRestrained nodes (run [] h) = .ok g ∧ (g.get a)[i]? = some true := by
  unfold globalRestrained
  rw [C13_histories_never_raise]
  exact ⟨_, rfl, C14_history_value storeBool nodes h _ .fixation e (.flag true) i a
    (by cases a <;> simp [Nodal.get]) hacts rfl hexp honly⟩

example : (globalRestrained ([0, -1] : List ℚ) (run [] [.support (-1) none (some true) none])).toOption.map
    (fun g => (g.y, g.z)) = some ([false, false], [false, true]) := by decide +kernel

/-- **C14, loads.** After any history, a load reaches its node truncated toward zero: exactly
when it is a whole number of kN, otherwise short by less than 1 kN.  The full property (the
nodal load equals the given load) fails, see `C14_violated_fractional_load`. -/
theorem C14_load_partial [IsStrictOrderedRing K] (nodes : List K) (h : List (Call K)) (e q : K) (i : ℕ) (a : Axis)
    (hacts : ActsAt nodes e i) (hq : q ≠ 0) (hexp : expected h .force e a = some (.num q))
    (honly : ∀ k ∈ h, kind k = .force → ActsAt nodes (elev k) i → elev k = e) :
    ∃ g f, globalForces nodes (run [] h) = .ok g ∧ (g.get a)[i]? = some f ∧
      |q - f| < 1 ∧ |(f : K)| ≤ |q| ∧ ((∃ z : ℤ, q = z) → (f : K) = q) := by
  unfold globalForces
  rw [C13_histories_never_raise]
  refine ⟨_, _, rfl, C14_history_value storeInt nodes h _ .force e (.num q) i a
    (by cases a <;> simp [Nodal.get]) hacts hq hexp honly, ?_⟩
  simp only [storeInt]
  split
  · rename_i h0
    have h1 := Int.floor_le q
    have h2 := Int.lt_floor_add_one q
    have h3 : (0 : K) ≤ ⌊q⌋ := by exact_mod_cast Int.floor_nonneg.2 h0
    refine ⟨by rw [abs_lt]; constructor <;> linarith,
      by rw [abs_of_nonneg h3, abs_of_nonneg h0]; exact h1, ?_⟩
    rintro ⟨z, rfl⟩; simp
  · rename_i h0
    push Not at h0
    have h1 := Int.le_ceil q
    have h2 := Int.ceil_lt_add_one q
    have h3 : (⌈q⌉ : K) ≤ 0 := by
      have : ⌈q⌉ ≤ 0 := Int.ceil_le.2 (by simpa using h0.le)
      exact_mod_cast this
    refine ⟨by rw [abs_lt]; constructor <;> linarith,
      by rw [abs_of_nonpos h3, abs_of_neg h0]; linarith, ?_⟩
    rintro ⟨z, rfl⟩; simp

example : (globalForces ([0, -1] : List ℚ) (run [] [.pointload 0 (some (-52/10)) none (some 7)])).toOption.map
    (fun g => (g.x, g.y)) = some ([7, 0], [-5, 0]) := by decide +kernel

/-- **C14 violated for loads.** A load of 0.9 kN applied at a node is dropped: the nodal load
arrays hold integers (construct.py 1073-1075), so the value is truncated to 0. -/
theorem C14_violated_fractional_load :
    ∃ (nodes : List ℚ) (h : List (Call ℚ)) (i : ℕ) (q : ℚ),
      h = [.pointload 0 (some q) none none] ∧ ActsAt nodes 0 i ∧ q ≠ 0 ∧
      ∃ g, globalForces nodes (run [] h) = .ok g ∧ (g.y)[i]? = some 0 :=
  ⟨[0, -1], _, 0, 9/10, rfl, ((C14_node_choice [0, -1] 0).1 0).1 (by decide +kernel),
    by norm_num, ⟨[0, 0], [0, 0], [0, 0]⟩, by decide +kernel, rfl⟩

/-- Setting an axis to zero or `False` after another condition at a *nearby* elevation (both
within tolerance of one node) does not clear it: falsy values are never written. -/
theorem C14_violated_falsy_not_written :
    ∃ (nodes : List ℚ) (h : List (Call ℚ)), h =
        [.support 0 (some true) none none, .support (1/2000) (some false) none none] ∧
      ActsAt nodes 0 0 ∧ ActsAt nodes (1/2000) 0 ∧
      ∃ g, globalRestrained nodes (run [] h) = .ok g ∧ (g.y)[0]? = some true :=
  ⟨[0, -1], _, rfl, ((C14_node_choice [0, -1] 0).1 0).1 (by decide +kernel),
    ((C14_node_choice [0, -1] _).1 0).1 (by decide +kernel),
    ⟨[false, false], [true, false], [false, false]⟩, by decide +kernel, rfl⟩

end OpenPile.Props.BC

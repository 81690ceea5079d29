/-
C77: what the plot of a model shows.
-/
import Verif.Model.Plot
import Verif.Props.Extent
import Verif.Props.BC

namespace OpenPile.Props.Plot
open OpenPile.Props.BC OpenPile.Plot OpenPile.BC OpenPile.Spec.BC OpenPile.Mesh
open OpenPile.Model (Model mkModel)
open OpenPile.Soil (Profile)

variable {K : Type} [Field K] [LinearOrder K] [IsStrictOrderedRing K] [FloorRing K]

/-! ### What an arrow should show -/

omit [Field K] [LinearOrder K] [IsStrictOrderedRing K] [FloorRing K] in
/-- The nodes with a load, with their loads, from top to bottom. -/
def loaded (nodes : List K) (loads : List ℤ) : List (K × ℤ) := (nodes.zip loads).filter (fun p => decide (p.2 ≠ 0))

/-- `top` is the largest magnitude among the loads. -/
def Largest (loads : List ℤ) (top : ℤ) : Prop := (∀ l ∈ loads, |l| ≤ top) ∧ ((∃ l ∈ loads, l ≠ 0) → ∃ l ∈ loads, |l| = top)

omit [LinearOrder K] [IsStrictOrderedRing K] [FloorRing K] in
/-- The arrow is straight, has one end at the node and is the load to the scale at which the largest load has a tenth
of the length of the pile; `dir` is the direction of a positive load. -/
def ShowsForce (total : K) (top : ℤ) (dir : K × K) (p : K × ℤ) (a : Arrow K) : Prop :=
  a.rad = 0 ∧ (a.head = (0, p.1) ∨ a.tail = (0, p.1)) ∧
  a.head.1 - a.tail.1 = total / 10 * (p.2 / top) * dir.1 ∧
  a.head.2 - a.tail.2 = total / 10 * (p.2 / top) * dir.2

omit [LinearOrder K] [IsStrictOrderedRing K] [FloorRing K] in
/-- Twice the area swept, counterclockwise positive, by the two chords of an arrow over its control point, which
matplotlib's `arc3` places at `rad` times the distance of the ends beside their midpoint (to the right for positive
`rad`). -/
def turn (a : Arrow K) : K :=
  let dx := a.head.1 - a.tail.1
  let dy := a.head.2 - a.tail.2
  let c : K × K := ((a.tail.1 + a.head.1) / 2 + a.rad * dy, (a.tail.2 + a.head.2) / 2 - a.rad * dx)
  (c.1 - a.tail.1) * (a.head.2 - c.2) - (c.2 - a.tail.2) * (a.head.1 - c.1)

omit [IsStrictOrderedRing K] [FloorRing K] in
/-- The arrow is centred on the node, turns counterclockwise for a positive moment and clockwise for a negative one
(a positive rotation moves what lies below the node towards positive `y`, see `rigidVec`), and has a chord proportional
to the moment. -/
def ShowsMoment (total : K) (top : ℤ) (p : K × ℤ) (a : Arrow K) : Prop :=
  a.tail.1 + a.head.1 = 0 ∧ a.tail.2 = p.1 ∧ a.head.2 = p.1 ∧
  |a.head.1 - a.tail.1| = 2 / 15 * total * (|(p.2 : K)| / top) ∧ 0 < turn a * p.2

/-! ### Lemmas on the loops -/

theorem loadMax_largest (loads : List ℤ) : Largest loads (loadMax loads) := by
  unfold Largest loadMax
  induction loads with
  | nil => simp
  | cons a l ih =>
    simp only [List.map_cons, List.foldr_cons, List.mem_cons, forall_eq_or_imp, exists_eq_or_imp]
    refine ⟨⟨le_max_left _ _, fun x hx => (ih.1 x hx).trans (le_max_right _ _)⟩, ?_⟩
    intro h
    by_cases hl : ∃ x ∈ l, x ≠ 0
    · obtain ⟨x, hx, hxe⟩ := ih.2 hl
      rcases max_choice |a| ((l.map (fun l => |l|)).foldr max 0) with h' | h'
      · exact .inl h'.symm
      · exact .inr ⟨x, hx, by rw [h', hxe]⟩
    · left
      rcases h with h | h
      · symm
        apply max_eq_left
        have : (l.map (fun l => |l|)).foldr max 0 = 0 := by
          clear ih h
          induction l with
          | nil => rfl
          | cons b l ih =>
            push Not at hl
            have hb : b = 0 := hl b (by simp)
            have := ih (by push Not; exact fun x hx => hl x (by simp [hx]))
            simp [hb, this]
        rw [this]
        exact abs_nonneg a
      · exact absurd h hl

omit [IsStrictOrderedRing K] [FloorRing K] in
theorem lateral_cons (total : K) (top : ℤ) (z : K) (load : ℤ) (r : List (K × ℤ)) :
    lateralArrows total top ((z, load) :: r) = if load = 0 then lateralArrows total top r else
      (if load > 0 then ⟨(-arrowLength total top load, z), (0, z), 0⟩
       else ⟨(arrowLength total top load, z), (0, z), 0⟩) :: lateralArrows total top r := rfl

omit [FloorRing K] in
/-- The length of an arrow without the absolute value. -/
theorem length_pos (total : K) (top load : ℤ) (h : 0 < load) (ht : 0 ≤ top) :
    arrowLength total top load = total / 10 * (load / top) := by
  unfold arrowLength
  rw [abs_of_nonneg]
  exact div_nonneg (by exact_mod_cast h.le) (by exact_mod_cast ht)

omit [FloorRing K] in
theorem length_neg (total : K) (top load : ℤ) (h : load < 0) (ht : 0 ≤ top) :
    arrowLength total top load = -(total / 10 * (load / top)) := by
  unfold arrowLength
  rw [abs_of_nonpos]
  · ring
  · exact div_nonpos_of_nonpos_of_nonneg (by exact_mod_cast h.le) (by exact_mod_cast ht)

omit [FloorRing K] in
theorem lateral_shows (total : K) (top : ℤ) (ht : 0 ≤ top) (l : List (K × ℤ)) :
    List.Forall₂ (ShowsForce total top (1, 0)) (l.filter (fun p => decide (p.2 ≠ 0))) (lateralArrows total top l) := by
  induction l with
  | nil => exact .nil
  | cons p r ih =>
    obtain ⟨z, load⟩ := p
    unfold lateralArrows
    by_cases h : load = 0
    · simpa [h] using ih
    · rw [if_neg h, List.filter_cons_of_pos (by simpa using h)]
      refine .cons ?_ ih
      unfold ShowsForce
      rcases lt_or_gt_of_ne h with h' | h'
      · rw [if_neg (by omega), length_neg total top load h' ht]
        simp
      · rw [if_pos h', length_pos total top load h' ht]
        simp

omit [FloorRing K] in
theorem vertical_shows (total : K) (top : ℤ) (ht : 0 ≤ top) (l : List (K × ℤ)) :
    List.Forall₂ (ShowsForce total top (0, 1)) (l.filter (fun p => decide (p.2 ≠ 0))) (verticalArrows total top l) := by
  induction l with
  | nil => exact .nil
  | cons p r ih =>
    obtain ⟨z, load⟩ := p
    unfold verticalArrows
    by_cases h : load = 0
    · simpa [h] using ih
    · rw [if_neg h, List.filter_cons_of_pos (by simpa using h)]
      refine .cons ?_ ih
      unfold ShowsForce
      rcases lt_or_gt_of_ne h with h' | h'
      · rw [if_neg (by omega), length_neg total top load h' ht]
        split_ifs <;> simp
      · rw [if_pos h', length_pos total top load h' ht]
        split_ifs <;> simp

omit [LinearOrder K] [IsStrictOrderedRing K] [FloorRing K] in
theorem turn_eq (a : Arrow K) (h2 : (2 : K) ≠ 0) :
    turn a = a.rad * ((a.head.1 - a.tail.1) ^ 2 + (a.head.2 - a.tail.2) ^ 2) := by
  unfold turn
  field_simp
  ring

omit [FloorRing K] in
theorem moment_shows (total : K) (htot : 0 < total) (top : ℤ) (l : List (K × ℤ)) (hl : ∀ p ∈ l, p.2 ≠ 0 → 0 < top)
    (bound : Bool) (as : List (Arrow K)) (h : momentArrows total top bound l = some as) :
    List.Forall₂ (ShowsMoment total top) (l.filter (fun p => decide (p.2 ≠ 0))) as := by
  induction l generalizing bound as with
  | nil => cases h; exact .nil
  | cons p r ih =>
    obtain ⟨z, load⟩ := p
    unfold momentArrows at h
    by_cases h0 : load = 0
    · rw [if_pos h0] at h
      simpa [h0] using ih (fun p hp => hl p (by simp [hp])) bound as h
    · rw [if_neg h0] at h
      cases bound with
      | false => simp at h
      | true =>
        rw [if_pos rfl] at h
        obtain ⟨as', h1, rfl⟩ := Option.map_eq_some_iff.1 h
        rw [List.filter_cons_of_pos (by simpa using h0)]
        refine .cons ?_ (ih (fun p hp => hl p (by simp [hp])) true as' h1)
        have ht : (0 : K) < top := by exact_mod_cast hl (z, load) (by simp) h0
        have hlen : arrowLength total top load = total / 10 * (|(load : K)| / top) := by
          rw [arrowLength, abs_div, abs_of_pos ht]
        have hab : 0 < |(load : K)| := abs_pos.2 (by exact_mod_cast h0)
        have hpos : 0 < arrowLength total top load := by rw [hlen]; positivity
        unfold ShowsMoment
        rw [turn_eq _ two_ne_zero]
        generalize hL : arrowLength total top load = L at *
        have key : ∀ rad : K, 0 < rad * load → 0 < rad * ((L / (3/2) + L / (3/2)) ^ 2) * load := by
          intro rad hr
          have : 0 < (L / (3/2) + L / (3/2)) ^ 2 := by positivity
          nlinarith [mul_pos hr this]
        have hrad : 0 < (if load > 0 then (1 / 2 : K) else -(1 / 2)) * load := by
          rcases lt_or_gt_of_ne h0 with h' | h'
          · rw [if_neg (by omega)]
            have : (load : K) < 0 := by exact_mod_cast h'
            linarith
          · rw [if_pos h']
            have : (0 : K) < load := by exact_mod_cast h'
            linarith
        have hk := key _ hrad
        have hcl : |L / (3/2) + L / (3/2)| = 2 / 15 * total * (|(load : K)| / top) := by
          rw [abs_of_pos (by positivity), hlen]
          ring
        by_cases hr : r = []
        · rw [if_pos hr]
          refine ⟨by simp, rfl, rfl, ?_, ?_⟩
          · rw [← hcl, ← abs_neg]
            congr 1
            ring
          · convert hk using 2
            ring
        · rw [if_neg hr]
          refine ⟨by simp, rfl, rfl, ?_, ?_⟩
          · rw [← hcl]
            congr 1
            ring
          · convert hk using 2
            ring

omit [IsStrictOrderedRing K] [FloorRing K] in
theorem lateral_empty (total : K) (top : ℤ) (l : List (K × ℤ)) :
    lateralArrows total top l = [] ↔ ∀ p ∈ l, p.2 = 0 := by
  induction l with
  | nil => simp [lateralArrows]
  | cons p r ih =>
    obtain ⟨z, load⟩ := p
    unfold lateralArrows
    by_cases h : load = 0
    · simp [h, ih]
    · simp [h]

omit [IsStrictOrderedRing K] [FloorRing K] in
theorem vertical_empty (total : K) (top : ℤ) (l : List (K × ℤ)) :
    verticalArrows total top l = [] ↔ ∀ p ∈ l, p.2 = 0 := by
  induction l with
  | nil => simp [verticalArrows]
  | cons p r ih =>
    obtain ⟨z, load⟩ := p
    unfold verticalArrows
    by_cases h : load = 0
    · simp [h, ih]
    · simp [h]

omit [IsStrictOrderedRing K] [FloorRing K] in
theorem moment_none (total : K) (top : ℤ) (bound : Bool) (l : List (K × ℤ)) :
    momentArrows total top bound l = none ↔ bound = false ∧ ∃ p ∈ l, p.2 ≠ 0 := by
  induction l generalizing bound with
  | nil => simp [momentArrows]
  | cons p r ih =>
    obtain ⟨z, load⟩ := p
    unfold momentArrows
    by_cases h : load = 0
    · simp [h, ih]
    · cases bound with
      | false => simp [h]
      | true => simp [h, ih]

/-! ### The loads of a model -/

omit [FloorRing K] in
/-- **C77, arrows.** When the plot is drawn, it has one arrow per non-zero nodal load, in the order of the nodes:
first the lateral, then the vertical loads, then the moments.  Each points the way its load acts and is as long as its
share of the largest load of its kind.  The full property would add that the plot is always drawn, see
`C77_raises_iff`. -/
theorem C77_arrows_partial (total : K) (htot : 0 < total) (nodes : List K) (f : Nodal ℤ) (as : List (Arrow K))
    (h : arrows total nodes f = some as) :
    ∃ ty tz tx, Largest f.y ty ∧ Largest f.z tz ∧ Largest f.x tx ∧ ∃ py pz mx, as = py ++ pz ++ mx ∧
      List.Forall₂ (ShowsForce total ty (1, 0)) (loaded nodes f.y) py ∧
      List.Forall₂ (ShowsForce total tz (0, 1)) (loaded nodes f.z) pz ∧
      List.Forall₂ (ShowsMoment total tx) (loaded nodes f.x) mx := by
  have hnn : ∀ l : List ℤ, 0 ≤ loadMax l := by
    intro l
    unfold loadMax
    induction l with
    | nil => simp
    | cons a l ih => exact le_max_of_le_right ih
  unfold arrows at h
  obtain ⟨mx, h1, rfl⟩ := Option.map_eq_some_iff.1 h
  refine ⟨_, _, _, loadMax_largest f.y, loadMax_largest f.z, loadMax_largest f.x, _, _, mx, rfl,
    lateral_shows total _ (hnn _) _, vertical_shows total _ (hnn _) _, moment_shows total htot _ _ ?_ _ _ h1⟩
  intro p hp hne
  exact lt_of_lt_of_le (abs_pos.2 hne) ((loadMax_largest f.x).1 _ (List.of_mem_zip hp).2)

omit [IsStrictOrderedRing K] [FloorRing K] in
/-- **C77, when the arrows can be drawn.** Exactly unless there is a moment but no force. -/
theorem C77_raises_iff (total : K) (nodes : List K) (f : Nodal ℤ) :
    arrows total nodes f = none ↔
      loaded nodes f.x ≠ [] ∧ loaded nodes f.y = [] ∧ loaded nodes f.z = [] := by
  unfold arrows
  rw [Option.map_eq_none_iff, moment_none]
  simp only [loaded, List.filter_eq_nil_iff, ne_eq, decide_eq_true_eq, not_not, Bool.not_eq_false',
    List.isEmpty_iff, List.append_eq_nil_iff, lateral_empty, vertical_empty, not_forall]
  constructor
  · rintro ⟨⟨h1, h2⟩, p, hp, hne⟩
    exact ⟨⟨p, hp, hne⟩, h1, h2⟩
  · rintro ⟨⟨p, hp, hne⟩, h1, h2⟩
    exact ⟨⟨h1, h2⟩, p, hp, hne⟩

/-! ### Supports -/

omit [Field K] [LinearOrder K] [IsStrictOrderedRing K] [FloorRing K] in
theorem mem_select (nodes : List K) (mask : List Bool) (z : K) :
    z ∈ select nodes mask ↔ ∃ i : ℕ, nodes[i]? = some z ∧ mask[i]? = some true := by
  simp only [select, List.mem_map, List.mem_filter, Prod.exists, exists_and_right]
  constructor
  · rintro ⟨a, ⟨b, hab, hb⟩, rfl⟩
    obtain ⟨i, hi⟩ := List.mem_iff_getElem?.1 hab
    rw [List.getElem?_zip_eq_some] at hi
    subst hb
    exact ⟨i, hi⟩
  · rintro ⟨i, h1, h2⟩
    exact ⟨z, ⟨true, List.mem_iff_getElem?.2 ⟨i, List.getElem?_zip_eq_some.2 ⟨h1, h2⟩⟩, rfl⟩, rfl⟩

theorem dropBottom_get (mask : List Bool) (i : ℕ) :
    (dropBottom mask)[i]? = some true ↔ mask[i]? = some true ∧ i + 1 ≠ mask.length := by
  unfold dropBottom
  rw [List.getElem?_set]
  by_cases h : mask.length - 1 = i
  · rw [if_pos h]
    constructor
    · intro h'
      split_ifs at h'
      simp at h'
    · rintro ⟨h1, h2⟩
      have := (List.getElem?_eq_some_iff.1 h1).1
      omega
  · rw [if_neg h]
    constructor
    · intro h'
      exact ⟨h', by omega⟩
    · exact fun h' => h'.1

theorem onlyBottom_get (mask : List Bool) (i : ℕ) :
    (onlyBottom mask)[i]? = some true ↔ mask[i]? = some true ∧ i + 1 = mask.length := by
  unfold onlyBottom
  rw [List.getElem?_mapIdx]
  cases h : mask[i]? with
  | none => simp
  | some b => simp

omit [Field K] [LinearOrder K] [IsStrictOrderedRing K] [FloorRing K] in
/-- **C77, supports.** A marker is drawn at an elevation exactly if a node there is restrained in the direction the
marker stands for; a vertical support is a triangle pointing up under the lowest node and down elsewhere. -/
theorem C77_supports (nodes : List K) (r : Nodal Bool) (k : Marker) (z : K) (hz : r.z.length = nodes.length) :
    (k, z) ∈ markers nodes r ↔ ∃ i : ℕ, nodes[i]? = some z ∧
      match k with
      | .down => r.z[i]? = some true ∧ i + 1 < nodes.length
      | .up => r.z[i]? = some true ∧ i + 1 = nodes.length
      | .side => r.y[i]? = some true
      | .square => r.x[i]? = some true := by
  unfold markers
  simp only [List.mem_append, List.mem_map, Prod.mk.injEq]
  cases k
  · simp only [reduceCtorEq, false_and, and_false, exists_false, or_false, true_and, exists_eq_right, mem_select,
      dropBottom_get, hz]
    refine exists_congr fun i => and_congr_right fun h => and_congr_right fun _ => ?_
    have := (List.getElem?_eq_some_iff.1 h).1
    omega
  · simp only [reduceCtorEq, false_and, and_false, exists_false, or_false, false_or, true_and, exists_eq_right,
      mem_select, onlyBottom_get, hz]
  · simp only [reduceCtorEq, false_and, and_false, exists_false, or_false, false_or, true_and, exists_eq_right,
      mem_select]
  · simp only [reduceCtorEq, false_and, and_false, exists_false, or_false, false_or, true_and, exists_eq_right,
      mem_select]

/-! ### The diagrams of the section forces -/

omit [FloorRing K] in
/-- **C77, limits.** The axis of a section force is a proper interval which contains zero and every value of the
table. -/
theorem C77_limits (f : List K) (hf : f ≠ []) :
    ∃ a b, forceLimits f = some (a, b) ∧ a < b ∧ a ≤ 0 ∧ 0 ≤ b ∧ ∀ x ∈ f, a ≤ x ∧ x ≤ b := by
  obtain ⟨lo, hlo⟩ : ∃ x, f.min? = some x := Option.isSome_iff_exists.1 (List.isSome_min?_of_ne_nil hf)
  obtain ⟨hi, hhi⟩ : ∃ x, f.max? = some x := Option.isSome_iff_exists.1 (List.isSome_max?_of_ne_nil hf)
  obtain ⟨hlm, hl⟩ := List.min?_eq_some_iff.1 hlo
  obtain ⟨hhm, hh⟩ := List.max?_eq_some_iff.1 hhi
  refine ⟨_, _, by rw [forceLimits, hlo, hhi], ?_, min_le_left _ _, le_max_left _ _, ?_⟩
  · have h1 : lo ≤ hi := hh lo hlm
    have h2 := abs_nonneg (lo + 1)
    have h3 := abs_nonneg (hi + 1)
    rcases lt_trichotomy lo 0 with h | h | h
    · refine lt_of_lt_of_le (lt_of_le_of_lt (min_le_right _ _) ?_) (le_max_left _ _)
      linarith
    · refine lt_of_lt_of_le (lt_of_le_of_lt (min_le_right _ _) ?_) (le_max_left _ _)
      rw [h, zero_add, abs_one]
      norm_num
    · refine lt_of_le_of_lt (min_le_left _ _) (lt_of_lt_of_le ?_ (le_max_right _ _))
      linarith
  · intro x hx
    have h1 := hl x hx
    have h2 := hh x hx
    have h3 := abs_nonneg (lo + 1)
    have h4 := abs_nonneg (hi + 1)
    exact ⟨(min_le_right _ _).trans (by linarith), le_trans (by linarith) (le_max_right _ _)⟩

/-! ### The plot of a model -/

omit [IsStrictOrderedRing K] in
/-- A history of calls that never gives a force in direction `a` leaves the nodal forces in that direction zero. -/
theorem forces_zero (nodes : List K) (h : List (Call K)) (a : Axis)
    (hq : ∀ k ∈ h, kind k = .force → ∀ q, arg k a = some (.num q) → q = 0) (g : Nodal ℤ)
    (hg : globalForces nodes (run [] h) = .ok g) : ∀ x ∈ g.get a, x = 0 := by
  unfold globalForces at hg
  rw [C13_histories_never_raise] at hg
  have hg' : applyBc storeInt nodes ⟨nodes.map (fun _ => (0 : ℤ)), nodes.map (fun _ => (0 : ℤ)),
    nodes.map (fun _ => (0 : ℤ))⟩ (run [] h) .force = g := by
    simpa [bind, Except.bind, pure, Except.pure] using hg
  intro x hx
  obtain ⟨i, hi⟩ := List.mem_iff_getElem?.1 hx
  set z : Nodal ℤ := ⟨nodes.map (fun _ => (0 : ℤ)), nodes.map (fun _ => (0 : ℤ)), nodes.map (fun _ => (0 : ℤ))⟩ with hz
  have hzg : z.get a = nodes.map (fun _ => (0 : ℤ)) := by cases a <;> rfl
  have hlen : (g.get a).length = (z.get a).length := by rw [← hg', applyBc_length]
  have hil : i < (z.get a).length := by rw [← hlen]; exact (List.getElem?_eq_some_iff.1 hi).1
  have := (C14_nodal_value storeInt nodes z (run [] h) .force a i hil).2 ?_
  · rw [hg', hi, hzg, List.getElem?_map] at this
    cases hn : nodes[i]? with
    | none => rw [hn] at this; simp at this
    | some n => rw [hn] at this; simpa using this
  · intro d hd hdc _ w hw heff
    have hab : about h .force d.elevation ≠ [] := by
      intro h0
      have h1 := (C12_last_write_wins h .force d.elevation).1 h0
      have : d ∈ (run [] h).filter (fun c => decide (c.cls = .force) && decide (c.elevation = d.elevation)) := by
        rw [List.mem_filter]; simp [hd, hdc]
      rw [h1] at this
      simp at this
    obtain ⟨c, hc, hca⟩ := (C12_last_write_wins h .force d.elevation).2 hab
    have hdm : d ∈ [c] := by
      rw [← hc, List.mem_filter]; simp [hd, hdc]
    rw [List.mem_singleton.1 hdm, hca a] at hw
    have hlast : ∀ l : List (Option (Val K)), ∀ init, lastWrite init l = some w → init = some w ∨ some w ∈ l := by
      intro l
      induction l with
      | nil => intro init h; exact .inl h
      | cons o l ih =>
        intro init h
        cases o with
        | none => exact (ih init h).imp id (fun h => by simp [h])
        | some v =>
          rcases ih (some v) h with h | h
          · exact .inr (by simp [h])
          · exact .inr (by simp [h])
    rcases hlast _ _ hw with h' | h'
    · cases h'
    · obtain ⟨k, hk, hka⟩ := List.mem_map.1 h'
      rw [about, List.mem_filter] at hk
      simp only [Bool.and_eq_true, decide_eq_true_eq] at hk
      obtain ⟨hk1, hk2, -⟩ := hk
      cases k with
      | pointload e py pz mx =>
        cases w with
        | num q => exact heff (hq _ hk1 hk2 q hka)
        | flag b => cases a <;> simp [arg] at hka
      | pointdisplacement => cases hk2
      | support => cases hk2

/-- **C77 violated.** A model loaded by a moment alone cannot be plotted: whatever the model and the calls, if no call
gives a lateral or vertical load other than zero and the last moment given at some node is at least 1 kNm,
`Model.plot()` raises. -/
theorem C77_violated_moment_only (m : Model K) (C : Coordinates K)
    (hC : getCoordinates m.pile m.soil m.x2mesh m.coarseness = some C) (h : List (Call K)) (auto : K × K)
    (hforce : ∀ k ∈ h, kind k = .force → ∀ a, a ≠ .x → ∀ q, arg k a = some (.num q) → q = 0)
    (e q : K) (i : ℕ) (hacts : ActsAt C.nodes e i) (hq : 1 ≤ |q|) (hexp : expected h .force e .x = some (.num q))
    (honly : ∀ k ∈ h, kind k = .force → ActsAt C.nodes (elev k) i → elev k = e) :
    connectivityPlot m (run [] h) auto = none := by
  have hq0 : q ≠ 0 := by
    rintro rfl
    simp at hq
    linarith
  obtain ⟨g, f, hg, hf, hfq, -, -⟩ := C14_load_partial C.nodes h e q i .x hacts hq0 hexp honly
  have hy := forces_zero C.nodes h .y (fun k hk hkk q hq => hforce k hk hkk .y (by decide) q hq) g hg
  have hz := forces_zero C.nodes h .z (fun k hk hkk q hq => hforce k hk hkk .z (by decide) q hq) g hg
  have hf0 : f ≠ 0 := by
    rintro rfl
    simp at hfq
    linarith
  have harr : ∀ total, arrows total C.nodes g = none := by
    intro total
    rw [C77_raises_iff]
    obtain ⟨⟨n, hn, -⟩, -⟩ := hacts
    refine ⟨?_, ?_, ?_⟩
    · intro h0
      have : (n, f) ∈ loaded C.nodes g.x := by
        rw [loaded, List.mem_filter]
        exact ⟨List.mem_iff_getElem?.2 ⟨i, List.getElem?_zip_eq_some.2 ⟨hn, hf⟩⟩, by simpa using hf0⟩
      rw [h0] at this
      simp at this
    · rw [loaded, List.filter_eq_nil_iff]
      intro p hp
      simpa using hy _ (List.of_mem_zip hp).2
    · rw [loaded, List.filter_eq_nil_iff]
      intro p hp
      simpa using hz _ (List.of_mem_zip hp).2
  unfold connectivityPlot
  rw [hC]
  simp only [Option.bind_eq_bind, Option.bind_some, hg, Except.toOption, harr]
  cases totalLength C.nodes with
  | none => rfl
  | some t =>
    cases globalRestrained C.nodes (run [] h) with
    | error => rfl
    | ok R => rfl

omit [FloorRing K] in
/-- The arrows of a plot stay within a tenth of the length around the line of the pile. -/
theorem arrow_bounds (total : K) (htot : 0 ≤ total) (nodes : List K) (f : Nodal ℤ) (as : List (Arrow K))
    (h : arrows total nodes f = some as) (lo hi : K) (hn : ∀ z ∈ nodes, lo ≤ z ∧ z ≤ hi) :
    ∀ a ∈ as, ∀ p, p = a.tail ∨ p = a.head → |p.1| ≤ total / 10 ∧ lo - total / 10 ≤ p.2 ∧ p.2 ≤ hi + total / 10 := by
  have hlen : ∀ (loads : List ℤ) (l : ℤ), l ∈ loads → 0 ≤ arrowLength total (loadMax loads) l ∧
      arrowLength total (loadMax loads) l ≤ total / 10 := by
    intro loads l hl
    have h1 := (loadMax_largest loads).1 l hl
    have h2 : |(l : K) / (loadMax loads : K)| ≤ 1 := by
      rw [abs_div]
      apply div_le_one_of_le₀ _ (abs_nonneg _)
      have : (|l| : ℤ) ≤ |loadMax loads| := h1.trans (le_abs_self _)
      exact_mod_cast this
    have h3 := abs_nonneg ((l : K) / (loadMax loads : K))
    constructor
    · unfold arrowLength; positivity
    · unfold arrowLength
      nlinarith
  have hlat : ∀ (top : ℤ) (l : List (K × ℤ)), (∀ p ∈ l, (lo ≤ p.1 ∧ p.1 ≤ hi) ∧ 0 ≤ arrowLength total top p.2 ∧
      arrowLength total top p.2 ≤ total / 10) → ∀ a ∈ lateralArrows total top l, ∀ p, p = a.tail ∨ p = a.head →
      |p.1| ≤ total / 10 ∧ lo - total / 10 ≤ p.2 ∧ p.2 ≤ hi + total / 10 := by
    intro top l hl
    induction l with
    | nil => simp [lateralArrows]
    | cons q r ih =>
      obtain ⟨z, load⟩ := q
      have ih' := ih (fun p hp => hl p (by simp [hp]))
      obtain ⟨⟨q1, q2⟩, q3, q4⟩ := hl (z, load) (by simp)
      simp only at q1 q2 q3 q4
      unfold lateralArrows
      by_cases h0 : load = 0
      · rw [if_pos h0]; exact ih'
      · rw [if_neg h0]
        intro a ha
        rcases List.mem_cons.1 ha with rfl | ha
        · intro p hp
          split_ifs at hp <;> rcases hp with rfl | rfl <;> simp only [abs_neg, abs_zero, abs_of_nonneg q3] <;>
            refine ⟨by linarith, by linarith, by linarith⟩
        · exact ih' a ha
  have hver : ∀ (top : ℤ) (l : List (K × ℤ)), (∀ p ∈ l, (lo ≤ p.1 ∧ p.1 ≤ hi) ∧ 0 ≤ arrowLength total top p.2 ∧
      arrowLength total top p.2 ≤ total / 10) → ∀ a ∈ verticalArrows total top l, ∀ p, p = a.tail ∨ p = a.head →
      |p.1| ≤ total / 10 ∧ lo - total / 10 ≤ p.2 ∧ p.2 ≤ hi + total / 10 := by
    intro top l hl
    induction l with
    | nil => simp [verticalArrows]
    | cons q r ih =>
      obtain ⟨z, load⟩ := q
      have ih' := ih (fun p hp => hl p (by simp [hp]))
      obtain ⟨⟨q1, q2⟩, q3, q4⟩ := hl (z, load) (by simp)
      simp only at q1 q2 q3 q4
      unfold verticalArrows
      by_cases h0 : load = 0
      · rw [if_pos h0]; exact ih'
      · rw [if_neg h0]
        intro a ha
        rcases List.mem_cons.1 ha with rfl | ha
        · intro p hp
          split_ifs at hp <;> rcases hp with rfl | rfl <;> simp only [abs_zero] <;>
            refine ⟨by linarith, by linarith, by linarith⟩
        · exact ih' a ha
  have hmom : ∀ (top : ℤ) (l : List (K × ℤ)), (∀ p ∈ l, (lo ≤ p.1 ∧ p.1 ≤ hi) ∧ 0 ≤ arrowLength total top p.2 ∧
      arrowLength total top p.2 ≤ total / 10) → ∀ bound mx, momentArrows total top bound l = some mx →
      ∀ a ∈ mx, ∀ p, p = a.tail ∨ p = a.head →
      |p.1| ≤ total / 10 ∧ lo - total / 10 ≤ p.2 ∧ p.2 ≤ hi + total / 10 := by
    intro top l hl
    induction l with
    | nil => intro bound mx hm; cases hm; simp
    | cons q r ih =>
      obtain ⟨z, load⟩ := q
      intro bound mx hm
      have ih' := ih (fun p hp => hl p (by simp [hp]))
      obtain ⟨⟨q1, q2⟩, q3, q4⟩ := hl (z, load) (by simp)
      simp only at q1 q2 q3 q4
      unfold momentArrows at hm
      by_cases h0 : load = 0
      · rw [if_pos h0] at hm; exact ih' bound mx hm
      · rw [if_neg h0] at hm
        cases bound with
        | false => simp at hm
        | true =>
          rw [if_pos rfl] at hm
          obtain ⟨mx', h1, rfl⟩ := Option.map_eq_some_iff.1 hm
          have q5 : 0 ≤ arrowLength total top load / (3 / 2) := by positivity
          have q6 : arrowLength total top load / (3 / 2) ≤ total / 10 := by
            rw [div_le_iff₀ (by norm_num)]
            linarith
          intro a ha
          rcases List.mem_cons.1 ha with rfl | ha
          · intro p hp
            split_ifs at hp <;> rcases hp with rfl | rfl <;> simp only [abs_neg, abs_of_nonneg q5] <;>
              refine ⟨by linarith, by linarith, by linarith⟩
          · exact ih' true mx' h1 a ha
  unfold arrows at h
  obtain ⟨mx, h1, rfl⟩ := Option.map_eq_some_iff.1 h
  have hz : ∀ (loads : List ℤ), ∀ p ∈ nodes.zip loads, (lo ≤ p.1 ∧ p.1 ≤ hi) ∧
      0 ≤ arrowLength total (loadMax loads) p.2 ∧ arrowLength total (loadMax loads) p.2 ≤ total / 10 :=
    fun loads p hp => ⟨hn _ (List.of_mem_zip hp).1, hlen loads _ (List.of_mem_zip hp).2⟩
  intro a ha
  rcases List.mem_append.1 ha with ha | ha
  · rcases List.mem_append.1 ha with ha | ha
    · exact hlat _ _ (hz f.y) a ha
    · exact hver _ _ (hz f.z) a ha
  · exact hmom _ _ (hz f.x) _ _ h1 a ha

/-- **C77, window.** Both ends of every arrow, and every support, lie within the limits of the axes, provided the
limits matplotlib gave the line of the mesh contain the nodes. -/
theorem C77_window (m : Model K) (C : Coordinates K)
    (hC : getCoordinates m.pile m.soil m.x2mesh m.coarseness = some C) (bcs : List (Cond K)) (auto : K × K)
    (hauto : ∀ z ∈ C.nodes, auto.1 ≤ z ∧ z ≤ auto.2) (pic : Picture K) (h : connectivityPlot m bcs auto = some pic) :
    (∀ a ∈ pic.arrows, ∀ p, p = a.tail ∨ p = a.head →
      (pic.xlim.1 ≤ p.1 ∧ p.1 ≤ pic.xlim.2) ∧ pic.ylim.1 ≤ p.2 ∧ p.2 ≤ pic.ylim.2) ∧
    ∀ s ∈ pic.markers, pic.ylim.1 ≤ s.2 ∧ s.2 ≤ pic.ylim.2 := by
  unfold connectivityPlot at h
  rw [hC] at h
  simp only [Option.bind_eq_bind, Option.bind_some] at h
  obtain ⟨total, ht, h⟩ := Option.bind_eq_some_iff.1 h
  obtain ⟨R, -, h⟩ := Option.bind_eq_some_iff.1 h
  obtain ⟨F, -, h⟩ := Option.bind_eq_some_iff.1 h
  obtain ⟨as, ha, h⟩ := Option.bind_eq_some_iff.1 h
  have ht0 : 0 ≤ total := by
    unfold totalLength at ht
    split at ht
    · cases ht; exact abs_nonneg _
    · cases ht
  have hb := arrow_bounds total ht0 C.nodes F as ha auto.1 auto.2 hauto
  have hmk : ∀ s ∈ markers C.nodes R, s.2 ∈ C.nodes := by
    intro s hs
    have hsel : ∀ mask, s.2 ∈ select C.nodes mask → s.2 ∈ C.nodes := by
      intro mask hm
      obtain ⟨i, hi, -⟩ := (mem_select _ _ _).1 hm
      exact List.mem_iff_getElem?.2 ⟨i, hi⟩
    unfold markers at hs
    simp only [List.mem_append, List.mem_map] at hs
    rcases hs with ((⟨z, hz, rfl⟩ | ⟨z, hz, rfl⟩) | ⟨z, hz, rfl⟩) | ⟨z, hz, rfl⟩ <;> exact hsel _ hz
  cases hs : m.soil with
  | none =>
    rw [hs] at h
    cases h
    refine ⟨?_, ?_⟩
    · intro a haa p hp
      obtain ⟨b1, b2, b3⟩ := hb a haa p hp
      obtain ⟨b4, b5⟩ := abs_le.1 b1
      refine ⟨⟨?_, ?_⟩, ?_, ?_⟩ <;> simp only <;> linarith
    · intro s hs
      obtain ⟨b1, b2⟩ := hauto _ (hmk s hs)
      refine ⟨?_, ?_⟩ <;> simp only <;> linarith
  | some sp =>
    rw [hs] at h
    simp only at h
    obtain ⟨b, -, h⟩ := Option.bind_eq_some_iff.1 h
    obtain ⟨t, -, h⟩ := Option.bind_eq_some_iff.1 h
    cases h
    have m1 := min_le_right b auto.1
    have m2 := le_max_right t auto.2
    refine ⟨?_, ?_⟩
    · intro a haa p hp
      obtain ⟨b1, b2, b3⟩ := hb a haa p hp
      obtain ⟨b4, b5⟩ := abs_le.1 b1
      refine ⟨⟨?_, ?_⟩, ?_, ?_⟩ <;> simp only <;> linarith
    · intro s hs
      obtain ⟨b1, b2⟩ := hauto _ (hmk s hs)
      refine ⟨?_, ?_⟩ <;> simp only <;> linarith

/-! ### Instances -/

/-- Two loads and a moment on three nodes: three arrows; the hypotheses of `C77_arrows_partial` are met. -/
example : arrows (10 : ℚ) [0, -5, -10] ⟨[0, -7, 0], [4, 0, -2], [0, 0, 0]⟩ =
    some [⟨(-1, 0), (0, 0), 0⟩, ⟨(1 / 2, -10), (0, -10), 0⟩, ⟨(-2 / 3, -5), (2 / 3, -5), -1 / 2⟩] := by
  decide +kernel

/-- The same moment without the forces raises. -/
example : arrows (10 : ℚ) [0, -5, -10] ⟨[0, -7, 0], [0, 0, 0], [0, 0, 0]⟩ = none := by decide +kernel

/-- An accepted model: a pile of 10 m in elements of 2 m, without soil. -/
def pile10 : Pile.Pile ℚ := ⟨[⟨0, -10, 1, 1 / 10⟩], ⟨77, 210000000, 3 / 10⟩⟩

example : ∃ m, mkModel pile10 none [] 2 = .ok m ∧
    (connectivityPlot m (run [] [.pointload 0 none none (some 500)]) (-10, 0)).isNone ∧
    (connectivityPlot m (run [] [.pointload 0 (some 1) none (some 500), .support (-10) none (some true) none])
      (-10, 0)).map (fun p => (p.markers, p.arrows.length, p.ylim)) =
      some ([(.up, -10)], 2, (-111 / 10, 11 / 10)) :=
  ⟨⟨pile10, none, [], 2⟩, by decide +kernel, by decide +kernel, by decide +kernel⟩

/-- The hypotheses of `C77_violated_moment_only` are met. -/
example : ActsAt ([0, -2, -4] : List ℚ) 0 0 ∧
    expected [Call.pointload (0 : ℚ) none none (some 500)] .force 0 .x = some (.num 500) :=
  ⟨((C14_node_choice [0, -2, -4] 0).1 0).1 (by decide +kernel), rfl⟩

example : forceLimits ([-3, 4, 1] : List ℚ) = some (-16 / 5, 9 / 2) := by decide +kernel

end OpenPile.Props.Plot

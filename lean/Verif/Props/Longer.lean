/-
Property C102: a pile made longer at its tip: the mesh, the stresses and the shaft resistance of the old part.
-/
import Verif.Props.StubSoil
import Verif.Props.Capacity

namespace OpenPile.Props.Longer
open OpenPile.Assemble OpenPile.Props.SplitPile
open OpenPile.Pile (Pile Section)

/-! ### mesh -/

section mesh
variable {K : Type} [Field K] [LinearOrder K] [IsStrictOrderedRing K] [FloorRing K]

theorem refine_prefix (c : K) (hc : 0 < c) (b : K) (B : List K) (hB : (b :: B).Pairwise (· > ·)) : ∀ A : List K,
    Mesh.refine c (A ++ b :: B) = Mesh.refine c (A ++ [b]) ++ (Mesh.refine c (b :: B)).tail := by
  intro A
  induction A with
  | nil =>
    have := Mesh.refine_head c b B hc hB
    cases h : Mesh.refine c (b :: B) with
    | nil => rw [h] at this; cases this
    | cons a l =>
      rw [h, List.head?_cons, Option.some.injEq] at this
      simp [Mesh.refine, h, this]
  | cons a A ih =>
    cases A with
    | nil =>
      simp only [List.cons_append, List.nil_append, Mesh.refine] at ih ⊢
      rw [List.append_assoc, ih]
      rfl
    | cons a' A =>
      simp only [List.cons_append, Mesh.refine] at ih ⊢
      rw [List.append_assoc, ih]

/-- The mesh of a pile with additional required elevations below the old tip: additional nodes at the end. -/
theorem mesh_longer (p p' : Pile K) (soil : Option (Soil.Profile K)) (x2 x2' : List K) (c tip tip' : K) (hc : 0 < c)
    (ht : p.bottomElevation = some tip) (ht' : p'.bottomElevation = some tip')
    (hreq : ∀ r, Spec.Mesh.Required p tip soil x2 r ↔ Spec.Mesh.Required p' tip' soil x2' r ∧ tip ≤ r)
    (htip : Spec.Mesh.Required p tip soil x2 tip) :
    ∃ z Y, Mesh.exactNodes p soil x2 c = some z ∧ Mesh.exactNodes p' soil x2' c = some (z ++ Y) := by
  have d := Py.uniqueDesc_pairwise (Mesh.pileElevations p ++ Mesh.soilElevations tip soil ++ x2)
  have d' := Py.uniqueDesc_pairwise (Mesh.pileElevations p' ++ Mesh.soilElevations tip' soil ++ x2')
  change (Mesh.primary p tip soil x2).Pairwise _ at d
  change (Mesh.primary p' tip' soil x2').Pairwise _ at d'
  have m := Mesh.mem_primary p soil x2 tip (hpb := ht)
  have m' := Mesh.mem_primary p' soil x2' tip' (hpb := ht')
  have hlast := Mesh.last_eq_min _ d tip ((m tip).2 htip) (fun x hx => ((hreq x).1 ((m x).1 hx)).2)
  obtain ⟨A, hA⟩ : ∃ A, Mesh.primary p tip soil x2 = A ++ [tip] := by
    rcases List.eq_nil_or_concat (Mesh.primary p tip soil x2) with h | ⟨A, a, h⟩
    · rw [h] at hlast; cases hlast
    · rw [List.concat_eq_append] at h
      rw [h, List.getLast?_concat, Option.some.injEq] at hlast
      exact ⟨A, by rw [h, hlast]⟩
  have hsplit : Mesh.primary p' tip' soil x2' = Mesh.primary p tip soil x2 ++ (Mesh.primary p' tip' soil x2').filter (fun x => decide (x < tip)) := by
    have dsum : (Mesh.primary p tip soil x2 ++ (Mesh.primary p' tip' soil x2').filter (fun x => decide (x < tip))).Pairwise (· > ·) := by
      refine List.pairwise_append.2 ⟨d, d'.sublist List.filter_sublist, ?_⟩
      intro a ha b hb
      have h1 : b < tip := by simpa using (List.mem_filter.1 hb).2
      exact lt_of_lt_of_le h1 ((hreq a).1 ((m a).1 ha)).2
    have hperm : (Mesh.primary p' tip' soil x2').Perm
        (Mesh.primary p tip soil x2 ++ (Mesh.primary p' tip' soil x2').filter (fun x => decide (x < tip))) := by
      rw [List.perm_ext_iff_of_nodup (d'.imp fun h => h.ne') (dsum.imp fun h => h.ne')]
      intro x
      rw [List.mem_append, List.mem_filter, m, m', hreq]
      by_cases hx : x < tip
      · simp [hx, not_le.2 hx]
      · simp [hx, not_lt.1 hx]
    exact hperm.eq_of_pairwise (fun a b _ _ hab hba => absurd hab (not_lt.2 (le_of_lt hba))) d' dsum
  rw [Mesh.exactNodes_eq p soil x2 c tip hc ht, Mesh.exactNodes_eq p' soil x2' c tip' hc ht']
  rw [hsplit, hA, List.append_assoc, List.singleton_append] at d'
  rw [hsplit, hA, List.append_assoc, List.singleton_append]
  exact ⟨_, _, rfl, congrArg some (refine_prefix c hc tip _ (List.pairwise_append.1 d').2.1 A)⟩

end mesh

/-- The elements of a mesh with further nodes at the end. -/
theorem pairs_below (z S : List ℝ) (t : ℝ) (hz : z.getLast? = some t) :
    ∃ X, (z ++ S).zip (z ++ S).tail = z.zip z.tail ++ X ∧ X.length = S.length ∧ ∀ e ∈ X, e.1 = t ∨ e.1 ∈ S := by
  induction z with
  | nil => cases hz
  | cons a z ih =>
    cases z with
    | nil =>
      cases hz
      refine ⟨(a :: S).zip S, by simp, by simp, fun e he => ?_⟩
      have := List.mem_cons.1 (List.of_mem_zip (show (e.1, e.2) ∈ _ from he)).1
      exact this
    | cons b l =>
      rw [List.getLast?_cons_cons] at hz
      obtain ⟨X, h1, h2, h3⟩ := ih hz
      refine ⟨X, ?_, h2, h3⟩
      simp only [List.cons_append, List.tail_cons, List.zip_cons_cons] at h1 ⊢
      rw [h1]

/-! ### stresses -/

section rows
variable {K : Type} [Field K] [LinearOrder K]

omit [Field K] in
theorem where_below (t : K) (els Y : List (K × K)) (hY : ∀ e ∈ Y, e.1 < t) : ∀ i : ℕ,
    Model.whereTop t i (els ++ Y) = Model.whereTop t i els := by
  have h0 : ∀ i : ℕ, Model.whereTop t i Y = [] := by
    induction Y with
    | nil => intro i; rfl
    | cons e Y ih =>
      intro i
      simp only [Model.whereTop]
      rw [if_neg (hY e (by simp)).ne, ih (fun e he => hY e (List.mem_cons_of_mem _ he))]
  induction els with
  | nil => intro i; exact h0 i
  | cons e l ih =>
    intro i
    simp only [List.cons_append, Model.whereTop, ih]

omit [LinearOrder K] in
theorem cumsum_append (s s' : List (Option K)) : ∀ a : K, ∃ b, Model.cumsum a (s ++ s') = Model.cumsum a s ++ Model.cumsum b s' := by
  induction s with
  | nil => intro a; exact ⟨a, rfl⟩
  | cons x s ih =>
    intro a
    cases x with
    | none =>
      obtain ⟨b, hb⟩ := ih a
      exact ⟨b, by simp only [List.cons_append, Model.cumsum, hb]⟩
    | some x =>
      obtain ⟨b, hb⟩ := ih (a + x)
      exact ⟨b, by simp only [List.cons_append, Model.cumsum, hb]⟩

theorem insert_below {α : Type} (a : α) (T : List α) : ∀ (L : List α) (i : ℕ), i ≤ L.length →
    (L ++ T).insertIdx i a = L.insertIdx i a ++ T := by
  intro L
  induction L with
  | nil =>
    intro i hi
    obtain rfl : i = 0 := by simpa using hi
    rfl
  | cons x L ih =>
    intro i hi
    cases i with
    | zero => rfl
    | succ i =>
      rw [List.cons_append, List.insertIdx_succ_cons, List.insertIdx_succ_cons, ih i (by simpa using hi)]
      rfl

/-- The stresses of a pile with further elements below the ground at its end: the same for the old elements. -/
theorem rows_below (sp : Soil.Profile K) (els Y : List (K × K)) (hY : ∀ e ∈ Y, e.1 < sp.topElevation) (hne : els ≠ [])
    {rows : List (Model.SoilRow K)} (h : (Model.soilRows sp els).toOption = some rows) :
    ∃ R, (Model.soilRows sp (els ++ Y)).toOption = some (rows ++ R) ∧ R.map (·.element) = Y := by
  unfold Model.soilRows Model.stressColumns at h ⊢
  rw [where_below _ _ _ hY]
  simp only [List.map_append]
  obtain ⟨b, hb⟩ := cumsum_append (els.map (fun e => (Model.elementWeight sp e).map (fun w => (e.1 - e.2) * w)))
    (Y.map (fun e => (Model.elementWeight sp e).map (fun w => (e.1 - e.2) * w))) 0
  simp only [hb]
  generalize hcs : Model.cumsum 0 (els.map (fun e => (Model.elementWeight sp e).map (fun w => (e.1 - e.2) * w))) = cs at h ⊢
  generalize hcs' : Model.cumsum b (Y.map (fun e => (Model.elementWeight sp e).map (fun w => (e.1 - e.2) * w))) = cs' at h ⊢
  have hlen : cs.length = els.length := by rw [← hcs, StubSoil.cumsum_length, List.length_map]
  have hlen' : cs'.length = Y.length := by rw [← hcs', StubSoil.cumsum_length, List.length_map]
  have hcne : cs ≠ [] := by
    intro h0
    rw [h0] at hlen
    exact hne (List.length_eq_zero_iff.1 hlen.symm)
  have hlt := StubSoil.where_lt sp.topElevation els 0
  rcases hwh : Model.whereTop sp.topElevation 0 els with _ | ⟨i, _ | ⟨j, l⟩⟩
  · rw [hwh] at h; cases h
  · rw [hwh] at h hlt
    have hi : i < els.length := by simpa using hlt i (by simp)
    simp only [bind, Except.bind, pure, Except.pure, Except.toOption, Option.some.injEq] at h ⊢
    rw [hcs] at h
    have hd : cs.dropLast.length = els.length - 1 := by rw [List.length_dropLast, hlen]
    obtain ⟨T, hT, hTl⟩ : ∃ T, (cs ++ cs').dropLast.insertIdx i (some (0 : K)) = cs.dropLast.insertIdx i (some 0) ++ T ∧
        T.length = Y.length := by
      obtain ⟨M, g, rfl⟩ : ∃ M g, cs = M ++ [g] := ⟨_, _, (List.dropLast_append_getLast hcne).symm⟩
      rw [List.append_assoc]
      have h1 : (M ++ ([g] ++ cs')).dropLast = M ++ ([g] ++ cs').dropLast := List.dropLast_append_of_ne_nil (by simp)
      rw [h1, List.dropLast_concat]
      rw [List.dropLast_concat] at hd
      refine ⟨([g] ++ cs').dropLast, ?_, by simp [hlen']⟩
      exact insert_below _ _ _ _ (by omega)
    rw [hT, List.zip_append (by rw [List.length_insertIdx_of_le_length (by omega), hlen]; omega), List.zipWith_append
      (by rw [List.length_zip, List.length_insertIdx_of_le_length (by omega), hlen]; omega), h]
    refine ⟨_, rfl, ?_⟩
    apply List.ext_getElem?
    intro k
    rw [List.getElem?_map]
    by_cases hk : k < Y.length
    · have : k < (List.zipWith (fun e (x : Option K × Option K) => (⟨e, Model.elementWeight sp e, x.1, x.2⟩ : Model.SoilRow K)) Y
          (T.zip cs')).length := by
        simp only [List.length_zipWith, List.length_zip]
        omega
      rw [List.getElem?_eq_getElem this, List.getElem?_eq_getElem hk]
      simp
    · rw [List.getElem?_eq_none (by simp only [List.length_zipWith, List.length_zip]; omega), List.getElem?_eq_none (not_lt.1 hk)]
      rfl
  · rw [hwh] at h; cases h

end rows

/-! ### limit friction -/

section friction
open OpenPile.Props.Assemble OpenPile.Props.Capacity OpenPile.Spec.Spring

/-- Limit frictions are not negative. -/
theorem friction_nonneg {S : Input} {r : Row} {b : Bool} {fc ft : ℝ} (h : Friction S r b fc ft) : 0 ≤ fc ∧ 0 ≤ ft := by
  have hs : ∀ q : Prop, ∀ _ : Decidable q, 0 ≤ sides q := by
    intro q _
    unfold sides
    split_ifs <;> norm_num
  cases h with
  | outside => exact ⟨le_refl _, le_refl _⟩
  | off => exact ⟨le_refl _, le_refl _⟩
  | clay l m y sig Su f h3 h4 h5 h6 h7 h8 h9 h10 h11 h12 h13 h14 =>
    have hsig : 0 < (if sig = 0 then 1 / 1000 else sig : ℝ) := by
      split_ifs with h0
      · norm_num
      · exact lt_of_le_of_ne h8 (Ne.symm h0)
    have hf : 0 < f := by
      rw [h11]
      exact mul_pos (lt_min (Props.Friction.adhesion_pos (div_pos h10 hsig)) one_pos) h10
    have := hs (Props.AxialModel.PluggedC m.plugging) inferInstance
    have := hs (Props.AxialModel.PluggedT m.plugging) inferInstance
    constructor <;> positivity
  | sand l m y sig de lim f h3 h4 h5 h6 h7 h8 h9 h10 h11 h12 h13 h14 =>
    have := hs (Props.AxialModel.PluggedC m.plugging) inferInstance
    have := hs (Props.AxialModel.PluggedT m.plugging) inferInstance
    constructor <;> positivity

/-- The limit friction is determined by the layer, the elevation, the stress there and the diameter of the pile. -/
theorem friction_det {S S' : Input} {r r' : Row} {b b' : Bool} {fc ft fc' ft' : ℝ} (ho : owners S' r' = owners S r)
    (hd : S'.distributedAxial = S.distributedAxial) (hz : (if b' then r'.bottom else r'.top) = if b then r.bottom else r.top)
    (hsig : (if b' then r'.sigBottom else r'.sigTop) = if b then r.sigBottom else r.sigTop)
    (hsec : r'.sec.map (·.diameter) = r.sec.map (·.diameter)) (h : Friction S r b fc ft) (h' : Friction S' r' b' fc' ft') :
    fc' = fc ∧ ft' = ft := by
  have hD : ∀ s s', r.sec = some s → r'.sec = some s' → s'.diameter = s.diameter := by
    intro s s' h1 h2
    rw [h1, h2] at hsec
    simpa using hsec
  cases h with
  | outside k1 =>
    cases h' with
    | outside => exact ⟨rfl, rfl⟩
    | off => exact ⟨rfl, rfl⟩
    | clay l m y sig Su f j1 => rw [ho, k1] at j1; cases j1
    | sand l m y sig de lim f j1 => rw [ho, k1] at j1; cases j1
  | off l k1 k2 =>
    cases h' with
    | outside => exact ⟨rfl, rfl⟩
    | off => exact ⟨rfl, rfl⟩
    | clay l' m y sig Su f j1 j2 j3 =>
      rw [ho, k1] at j1
      cases j1
      rcases k2 with k2 | k2
      · rw [k2] at j2; cases j2
      · rw [hd, k2] at j3; cases j3
    | sand l' m y sig de lim f j1 j2 j3 =>
      rw [ho, k1] at j1
      cases j1
      rcases k2 with k2 | k2
      · rw [k2] at j2; cases j2
      · rw [hd, k2] at j3; cases j3
  | clay l m y sig Su f k1 k2 k3 k4 k5 k6 k7 k8 k9 =>
    cases h' with
    | outside j1 => rw [ho, k1] at j1; cases j1
    | off l' j1 j2 =>
      rw [ho, k1] at j1
      cases j1
      rcases j2 with j2 | j2
      · rw [j2] at k2; cases k2
      · rw [hd, k3] at j2; cases j2
    | clay l' m' y' sig' Su' f' j1 j2 j3 j4 j5 j6 j7 j8 j9 =>
      rw [ho, k1] at j1
      cases j1
      rw [k2] at j2
      cases j2
      rw [hsig, k4] at j4
      cases j4
      rw [hz, k7] at j7
      cases j7
      rw [hD y y' k5 j5, j9, k9]
      exact ⟨rfl, rfl⟩
    | sand l' m' y' sig' de lim f' j1 j2 =>
      rw [ho, k1] at j1
      cases j1
      rw [k2] at j2
      cases j2
  | sand l m y sig de lim f k1 k2 k3 k4 k5 k6 k7 k8 =>
    cases h' with
    | outside j1 => rw [ho, k1] at j1; cases j1
    | off l' j1 j2 =>
      rw [ho, k1] at j1
      cases j1
      rcases j2 with j2 | j2
      · rw [j2] at k2; cases k2
      · rw [hd, k3] at j2; cases j2
    | clay l' m' y' sig' Su' f' j1 j2 =>
      rw [ho, k1] at j1
      cases j1
      rw [k2] at j2
      cases j2
    | sand l' m' y' sig' de' lim' f' j1 j2 j3 j4 j5 j6 j7 j8 =>
      rw [ho, k1] at j1
      cases j1
      rw [k2] at j2
      cases j2
      rw [hsig, k4] at j4
      cases j4
      rw [hz, k6] at j6
      cases j6
      have e1 := (Props.Spring.interp_iff_both _ _ _ Props.Friction.frictionLimit_asc).2 k7
      have e2 := (Props.Spring.interp_iff_both _ _ _ Props.Friction.frictionLimit_asc).2 j7
      rw [e1] at e2
      cases e2
      rw [hD y y' k5 j5, j8, k8]
      exact ⟨rfl, rfl⟩

/-! ### the sum over the elements -/

/-- What the code adds up for one direction. -/
noncomputable def total (z : ℕ → ℝ) (n : ℕ) (f : ℕ → Bool → ℝ) : ℝ :=
  ∑ i ∈ Finset.range n, (f i false * (span z n i / 2) + f i true * (span z n (i + 1) / 2))

/-- Further elements at the end. -/
theorem total_longer {z z' : ℕ → ℝ} {n k : ℕ} (hn : 0 < n) (hk : 0 < k) (hz : ∀ i ≤ n, z' i = z i) {f f' : ℕ → Bool → ℝ}
    (hf : ∀ i < n, ∀ b, f' i b = f i b) :
    total z' (n + k) f' = total z n f + f (n - 1) true * ((z n - z' (n + 1)) - (z (n - 1) - z n)) / 4
      + ∑ i ∈ Finset.range k, (f' (n + i) false * (span z' (n + k) (n + i) / 2) + f' (n + i) true * (span z' (n + k) (n + i + 1) / 2)) := by
  unfold total
  rw [Finset.sum_range_add]
  congr 1
  obtain ⟨m, rfl⟩ : ∃ m, n = m + 1 := ⟨n - 1, by omega⟩
  rw [Finset.sum_range_succ, Finset.sum_range_succ]
  have h1 : ∀ i ≤ m, span z' (m + 1 + k) i = span z (m + 1) i := by
    intro i hi
    unfold span
    by_cases h0 : i = 0
    · rw [if_pos h0, if_pos h0, hz 0 (by omega), hz 1 (by omega)]
    · rw [if_neg h0, if_neg h0, if_neg (by omega), if_neg (by omega), hz _ (by omega), hz _ (by omega)]
  have h2 : ∑ i ∈ Finset.range m, (f' i false * (span z' (m + 1 + k) i / 2) + f' i true * (span z' (m + 1 + k) (i + 1) / 2))
      = ∑ i ∈ Finset.range m, (f i false * (span z (m + 1) i / 2) + f i true * (span z (m + 1) (i + 1) / 2)) := by
    refine Finset.sum_congr rfl (fun i hi => ?_)
    have := Finset.mem_range.1 hi
    rw [hf i (by omega), hf i (by omega), h1 i (by omega), h1 (i + 1) (by omega)]
  have h3 : span z' (m + 1 + k) (m + 1) = (z m - z' (m + 1 + 1)) / 2 := by
    unfold span
    rw [if_neg (by omega), if_neg (by omega), Nat.add_sub_cancel, hz m (by omega)]
  have h4 : span z (m + 1) (m + 1) = z m - z (m + 1) := by
    unfold span
    rw [if_neg (by omega), if_pos rfl, Nat.add_sub_cancel]
  rw [h2, hf m (by omega), hf m (by omega), h1 m le_rfl, h3, h4, Nat.add_sub_cancel]
  ring

theorem span_nonneg {z : ℕ → ℝ} {n : ℕ} (hz : Extract.Descending z n) (hn : 0 < n) {i : ℕ} (hi : i ≤ n) : 0 ≤ span z n i := by
  unfold span
  split_ifs with h0 h1
  · linarith [hz 0 (by omega)]
  · have := hz (n - 1) (by omega)
    rw [Nat.sub_add_cancel hn] at this
    linarith
  · have a := hz (i - 1) (by omega)
    have b := hz i (by omega)
    rw [Nat.sub_add_cancel (by omega)] at a
    linarith

/-- If the friction does not drop at the old tip, the sum grows at least by the friction there times half of the first new
element; if the first new element is not shorter than the last old one, it does not shrink. -/
theorem total_never_less {z z' : ℕ → ℝ} {n k : ℕ} (hn : 0 < n) (hk : 0 < k) (hz : ∀ i ≤ n, z' i = z i)
    (hd : Extract.Descending z' (n + k)) {f f' : ℕ → Bool → ℝ} (hf : ∀ i < n, ∀ b, f' i b = f i b)
    (h0 : ∀ i < n + k, ∀ b, 0 ≤ f' i b) :
    (f (n - 1) true ≤ f' n false → total z n f + f (n - 1) true * ((z n - z' (n + 1)) / 2) ≤ total z' (n + k) f') ∧
      (z (n - 1) - z n ≤ z n - z' (n + 1) → total z n f ≤ total z' (n + k) f') := by
  rw [total_longer hn hk hz hf]
  obtain ⟨j, rfl⟩ : ∃ j, k = j + 1 := ⟨k - 1, by omega⟩
  have hp : ∀ i < j + 1, 0 ≤ f' (n + i) false * (span z' (n + (j + 1)) (n + i) / 2) ∧
      0 ≤ f' (n + i) true * (span z' (n + (j + 1)) (n + i + 1) / 2) := by
    intro i hi
    have a := span_nonneg hd (by omega) (i := n + i) (by omega)
    have b := span_nonneg hd (by omega) (i := n + i + 1) (by omega)
    exact ⟨mul_nonneg (h0 _ (by omega) _) (by linarith), mul_nonneg (h0 _ (by omega) _) (by linarith)⟩
  constructor
  · intro h
    rw [Finset.sum_range_succ']
    have h1 : 0 ≤ ∑ i ∈ Finset.range j, (f' (n + (i + 1)) false * (span z' (n + (j + 1)) (n + (i + 1)) / 2)
        + f' (n + (i + 1)) true * (span z' (n + (j + 1)) (n + (i + 1) + 1) / 2)) := by
      refine Finset.sum_nonneg (fun i hi => ?_)
      have := hp (i + 1) (by have := Finset.mem_range.1 hi; omega)
      linarith [this.1, this.2]
    have h2 := (hp 0 (by omega)).2
    have h3 : span z' (n + (j + 1)) (n + 0) = (z (n - 1) - z' (n + 1)) / 2 := by
      unfold span
      rw [if_neg (by omega), if_neg (by omega), Nat.add_zero, hz (n - 1) (by omega)]
    rw [h3]
    simp only [Nat.add_zero] at h2 ⊢
    have h4 : 0 ≤ (z (n - 1) - z' (n + 1)) := by
      have a := hd (n - 1) (by omega)
      have b := hd n (by omega)
      rw [Nat.sub_add_cancel hn] at a
      have e1 := hz (n - 1) (by omega)
      have e2 := hz n le_rfl
      linarith
    have h5 := mul_le_mul_of_nonneg_right h h4
    linarith
  · intro h
    have h1 : 0 ≤ ∑ i ∈ Finset.range (j + 1), (f' (n + i) false * (span z' (n + (j + 1)) (n + i) / 2)
        + f' (n + i) true * (span z' (n + (j + 1)) (n + i + 1) / 2)) := by
      refine Finset.sum_nonneg (fun i hi => ?_)
      have := hp i (Finset.mem_range.1 hi)
      linarith [this.1, this.2]
    have h2 : 0 ≤ f (n - 1) true := by rw [← hf (n - 1) (by omega)]; exact h0 _ (by omega) _
    have h3 := mul_nonneg h2 (sub_nonneg.2 h)
    linarith

/-! ### a Model with a longer pile -/

/-- The meshes of both Models. -/
theorem meshes (p p' : Pile ℝ) (E : List (Section ℝ)) (hE : p'.sections = p.sections ++ E) (sp : SoilProfile) (x2 y : List ℝ)
    (c top tip tip' : ℝ) (h : Weight.Setup p sp.geometry x2 c top tip) (h' : Weight.Setup p' sp.geometry (x2 ++ y) c top tip')
    (hy : ∀ x ∈ y, x ≤ tip) :
    ∃ S X C C', Mesh.getCoordinates p (some sp.geometry) x2 c = some C ∧ Mesh.getCoordinates p' (some sp.geometry) (x2 ++ y) c = some C' ∧
      C'.nodes = C.nodes ++ S ∧ C'.elements = C.elements ++ X ∧ X.length = S.length ∧ (∀ x ∈ S, x < tip) ∧ (∀ e ∈ X, e.1 ≤ tip) := by
  obtain ⟨g, hg, hgt⟩ : ∃ g, p.sections.getLast? = some g ∧ g.bottom = tip := by
    have := h.tip_eq
    unfold Pile.bottomElevation at this
    cases hl : p.sections.getLast? with
    | none => rw [hl] at this; cases this
    | some g => rw [hl] at this; exact ⟨g, rfl, by simpa using this⟩
  have hgm : g ∈ p.sections := List.mem_of_getLast? hg
  have hb' : ∀ s ∈ p'.sections, s.bottom < s.top := fun s hs => (h'.sections s hs).2
  obtain ⟨secs', mat', hmk', hsb'⟩ := h'.pile
  obtain ⟨hch', -⟩ := Mesh.mkPile_sections secs' mat' p' hmk'
  have hEtip : ∀ s ∈ E, s.top ≤ tip := by
    obtain ⟨A, hA⟩ : ∃ A, p.sections = A ++ [g] := by
      rcases List.eq_nil_or_concat p.sections with h0 | ⟨A, a, h0⟩
      · rw [h0] at hg; cases hg
      · rw [List.concat_eq_append] at h0
        rw [h0, List.getLast?_concat, Option.some.injEq] at hg
        exact ⟨A, by rw [h0, hg]⟩
    rw [hE, hA, List.append_assoc, List.singleton_append] at hch'
    have hgE : (g :: E).IsChain (fun u v => v.top = u.bottom) := (List.isChain_append.1 hch').2.1
    have hbE : ∀ s ∈ E, s.bottom < s.top := fun s hs => hb' s (by rw [hE]; exact List.mem_append_right _ hs)
    rw [← hgt]
    clear hch' hA
    clear hE hg hgt hgm
    induction E generalizing g with
    | nil => intro s hs; cases hs
    | cons e E ih =>
      intro s hs
      have h1 := (List.isChain_cons_cons.1 hgE).1
      rcases List.mem_cons.1 hs with rfl | hs
      · exact h1.le
      · have := ih e (List.isChain_cons_cons.1 hgE).2 (fun s hs => hbE s (List.mem_cons_of_mem _ hs)) s hs
        have := hbE e (by simp)
        linarith
  have hreqtip : Spec.Mesh.Required p tip (some sp.geometry) x2 tip := Or.inl ⟨g, hgm, Or.inr hgt.symm⟩
  have htt : tip' ≤ tip := by
    have := h'.sections g (by rw [hE]; exact List.mem_append_left _ hgm)
    rw [← hgt]
    exact this.1
  have hreq : ∀ r, Spec.Mesh.Required p tip (some sp.geometry) x2 r ↔
      Spec.Mesh.Required p' tip' (some sp.geometry) (x2 ++ y) r ∧ tip ≤ r := by
    intro r
    constructor
    · rintro (⟨s, hs, h1⟩ | ⟨q, hq, l, hl, h1, h2⟩ | h1)
      · refine ⟨Or.inl ⟨s, by rw [hE]; exact List.mem_append_left _ hs, h1⟩, ?_⟩
        have := h.sections s hs
        rcases h1 with rfl | rfl
        · exact this.1.trans this.2.le
        · exact this.1
      · exact ⟨Or.inr (Or.inl ⟨q, hq, l, hl, h1, htt.trans h2⟩), h2⟩
      · exact ⟨Or.inr (Or.inr (List.mem_append_left _ h1)), h.extra r h1⟩
    · rintro ⟨⟨s, hs, h1⟩ | ⟨q, hq, l, hl, h1, h2⟩ | h1, hr⟩
      · rw [hE, List.mem_append] at hs
        rcases hs with hs | hs
        · exact Or.inl ⟨s, hs, h1⟩
        · have h2 := hEtip s hs
          have h3 := hb' s (by rw [hE]; exact List.mem_append_right _ hs)
          have : r = tip := by
            rcases h1 with rfl | rfl
            · exact le_antisymm h2 hr
            · exact absurd hr (not_le.2 (lt_of_lt_of_le h3 h2))
          rw [this]
          exact hreqtip
      · exact Or.inr (Or.inl ⟨q, hq, l, hl, h1, hr⟩)
      · rcases List.mem_append.1 h1 with h1 | h1
        · exact Or.inr (Or.inr h1)
        · rw [le_antisymm (hy r h1) hr]
          exact hreqtip
  obtain ⟨z, Y, hz, hz'⟩ := mesh_longer p p' (some sp.geometry) x2 (x2 ++ y) c tip tip' (lt_of_lt_of_le (by norm_num) h.coarse) h.tip_eq h'.tip_eq
    hreq hreqtip
  obtain ⟨C, hC, hm⟩ := NoModels.meshOn_setup h
  obtain ⟨C', hC', hm'⟩ := NoModels.meshOn_setup h'
  have hnodes : C.nodes = z.map Mesh.round4 ∧ C'.nodes = z.map Mesh.round4 ++ Y.map Mesh.round4 := by
    unfold Mesh.getCoordinates at hC hC'
    rw [hz] at hC
    rw [hz'] at hC'
    cases hC
    cases hC'
    exact ⟨rfl, List.map_append⟩
  have hS : C'.nodes = C.nodes ++ Y.map Mesh.round4 := by rw [hnodes.1, hnodes.2]
  have hSt : ∀ x ∈ Y.map Mesh.round4, x < tip := by
    intro x hx
    have := hm'.dec
    rw [hS] at this
    exact (List.pairwise_append.1 this).2.2 tip (List.mem_of_getLast? hm.last) x hx
  obtain ⟨X, h1, h2, h3⟩ := pairs_below C.nodes (Y.map Mesh.round4) tip hm.last
  refine ⟨Y.map Mesh.round4, X, C, C', hC, hC', hS, ?_, h2, hSt, fun e he => ?_⟩
  · rw [hm'.elements, hS, h1, hm.elements]
  · rcases h3 e he with h4 | h4
    · exact h4.le
    · exact (hSt _ h4).le

/-- What both Models share and what they report. -/
structure Both (p p' : Pile ℝ) (sp : SoilProfile) (x2 y : List ℝ) (c tip : ℝ) (w : Switches) (table table' : List (ℝ × Section ℝ))
    (env env' : Draws) (C C' : Mesh.Coordinates ℝ) (S' : Input) (fc ft : ℕ → Bool → ℝ) (n k : ℕ) : Prop where
  mesh : Mesh.getCoordinates p (some sp.geometry) x2 c = some C
  mesh' : Mesh.getCoordinates p' (some sp.geometry) (x2 ++ y) c = some C'
  nodes : ∃ N, C'.nodes = C.nodes ++ N ∧ ∀ x ∈ N, x < tip
  number : C.elements.length = n
  number' : C'.elements.length = n + k
  old : 0 < n
  new : 0 < k
  same : ∀ i ≤ n, Capacity.elevations C' i = Capacity.elevations C i
  tip_eq : Capacity.elevations C' n = tip
  falling : Extract.Descending (Capacity.elevations C') (n + k)
  input_eq : input p' sp (x2 ++ y) c w table' = some S'
  frictions : Frictions S' fc ft
  short : Capacity.shaft p sp x2 c w table env = some (total (Capacity.elevations C) n fc, total (Capacity.elevations C) n ft)
  long : Capacity.shaft p' sp (x2 ++ y) c w table' env' = some (total (Capacity.elevations C') (n + k) fc, total (Capacity.elevations C') (n + k) ft)

theorem total_congr {z : ℕ → ℝ} {n : ℕ} {f f' : ℕ → Bool → ℝ} (h : ∀ i < n, ∀ b, f' i b = f i b) : total z n f' = total z n f := by
  unfold total
  refine Finset.sum_congr rfl (fun i hi => ?_)
  rw [h i (Finset.mem_range.1 hi), h i (Finset.mem_range.1 hi)]

theorem both {p p' : Pile ℝ} {E : List (Section ℝ)} (hE : p'.sections = p.sections ++ E) {sp : SoilProfile} {x2 y : List ℝ}
    {c top tip tip' : ℝ} (h : Weight.Setup p sp.geometry x2 c top tip) (h' : Weight.Setup p' sp.geometry (x2 ++ y) c top tip')
    (hlt : tip' < tip) (hy : ∀ x ∈ y, x ≤ tip) (w : Switches) {table table' : List (ℝ × Section ℝ)} (htab : Model.SortedRows p table)
    (htab' : Model.SortedRows p' table')
    (hd : ∀ z, tip < z → z ≤ top → (Model.elementSection table' z).map (·.diameter) = (Model.elementSection table z).map (·.diameter))
    {env env' : Draws} (henv : GoodDraws env ∧ GoodTip env ∧ GoodLateral env) (henv' : GoodDraws env' ∧ GoodTip env' ∧ GoodLateral env')
    (hsound : ∀ l ∈ sp.layers, ∀ m, l.axial = some m → Sound (l.top - l.bottom) m)
    (hlat : ∀ l ∈ sp.layers, ∀ m, l.lateral = some m → ∀ s ∈ p.sections, Spec.Sound.Lateral s.diameter (sp.topElevation - tip) m)
    (hlat' : ∀ l ∈ sp.layers, ∀ m, l.lateral = some m → ∀ s ∈ p'.sections, Spec.Sound.Lateral s.diameter (sp.topElevation - tip') m) :
    ∃ C C' S' fc ft n k, Both p p' sp x2 y c tip w table table' env env' C C' S' fc ft n k := by
  obtain ⟨N, X, C, C', hC, hC', hN, hX, hXl, hNt, hXt⟩ := meshes p p' E hE sp x2 y c top tip tip' h h' hy
  obtain ⟨D, hD, hm⟩ := Weight.mesh_facts h
  rw [hC, Option.some.injEq] at hD
  subst hD
  obtain ⟨D, hD, hm'⟩ := Weight.mesh_facts h'
  rw [hC', Option.some.injEq] at hD
  subst hD
  obtain ⟨D, S, water, fc, ft, A, hD, hS, -, -, hlay, -, -, hrows, ⟨r0, hr0, -⟩, hfr, hA⟩ :=
    C64_setup h w htab henv.1 henv.2.1 henv.2.2 hsound hlat
  clear hD D
  obtain ⟨D, S', water', fc', ft', A', hD, hS', -, -, hlay', -, -, hrows', -, hfr', hA'⟩ :=
    C64_setup h' w htab' henv'.1 henv'.2.1 henv'.2.2 hsound hlat'
  clear hD D
  obtain ⟨D, hD, hel, hsh⟩ := C56_model_shaft_partial h w table hS hA henv.1 hfr
  rw [hC, Option.some.injEq] at hD
  subst hD
  obtain ⟨D, hD, hel', hsh'⟩ := C56_model_shaft_partial h' w table' hS' hA' henv'.1 hfr'
  rw [hC', Option.some.injEq] at hD
  subst hD
  have hn : 0 < C.elements.length := by
    rw [hel, List.length_map]
    exact List.length_pos_of_mem (List.mem_of_getLast? hr0.last)
  obtain ⟨hde, hnl⟩ := elevations_descending hm
  obtain ⟨hde', hnl'⟩ := elevations_descending hm'
  have hk : 0 < N.length := by
    rw [List.length_pos_iff]
    rintro rfl
    have := hm'.last
    rw [hN, List.append_nil, hm.last, Option.some.injEq] at this
    exact hlt.ne this.symm
  have hlen : C'.elements.length = C.elements.length + N.length := by rw [hX, List.length_append, hXl]
  have hsame : ∀ i ≤ C.elements.length, Capacity.elevations C' i = Capacity.elevations C i := by
    intro i hi
    unfold Capacity.elevations
    rw [hN, List.getD_append _ _ _ _ (by omega)]
  have htip : Capacity.elevations C' C.elements.length = tip := by
    rw [hsame _ le_rfl]
    unfold Capacity.elevations
    have := hm.last
    rw [List.getLast?_eq_getElem?, show C.nodes.length - 1 = C.elements.length by omega] at this
    rw [List.getD_eq_getElem?_getD, this]
    rfl
  -- rows
  have hrel : ∀ (i : ℕ) (r r' : Row), S.rows[i]? = some r → S'.rows[i]? = some r' → r'.top = r.top ∧ r'.bottom = r.bottom ∧ r'.sigTop = r.sigTop ∧
      r'.sigBottom = r.sigBottom ∧ r'.sec.map (·.diameter) = r.sec.map (·.diameter) := by
    intro i r r' hi hi'
    have hrm : r ∈ S.rows := List.mem_of_getElem? hi
    have he : (r.top, r.bottom) ∈ C.elements := by
      rw [hel]
      exact List.mem_map.2 ⟨r, hrm, rfl⟩
    have hrange := hm.range _ he
    have hpos := hm.pos _ he
    have hS0 := hS
    have hS0' := hS'
    simp only [input, Option.bind_eq_bind, Option.bind_eq_some_iff, Option.pure_def, Option.some.injEq] at hS0 hS0'
    obtain ⟨rows, g1, _, -, _, -, _, -, rfl⟩ := hS0
    obtain ⟨rows', g2, _, -, _, -, _, -, rfl⟩ := hS0'
    unfold Model.soilProperties at g1 g2
    rw [hC] at g1
    rw [hC'] at g2
    simp only [hX] at g1 g2
    obtain ⟨R, hR, -⟩ := rows_below sp.geometry C.elements X (fun e he => lt_of_le_of_lt (hXt e he) h.ground)
      (List.ne_nil_of_length_pos hn) g1
    rw [g2, Option.some.injEq] at hR
    subst hR
    simp only [List.map_append] at hi hi'
    have hi1 : i < (rows.map (rowOf table)).length := by
      by_contra h0
      rw [List.getElem?_eq_none (not_lt.1 h0)] at hi
      cases hi
    rw [List.length_map] at hi1
    rw [List.getElem?_append_left (by rw [List.length_map]; exact hi1), List.getElem?_map, List.getElem?_eq_getElem hi1] at hi'
    rw [List.getElem?_map, List.getElem?_eq_getElem hi1] at hi
    cases hi
    cases hi'
    refine ⟨rfl, rfl, rfl, rfl, ?_⟩
    refine hd _ ?_ hrange.1
    exact lt_of_le_of_lt hrange.2 hpos
  have hax : S'.distributedAxial = S.distributedAxial := by
    have hS0 := hS
    have hS0' := hS'
    simp only [input, Option.bind_eq_bind, Option.bind_eq_some_iff, Option.pure_def, Option.some.injEq] at hS0 hS0'
    obtain ⟨rows, g1, _, -, _, -, _, -, rfl⟩ := hS0
    obtain ⟨rows', g2, _, -, _, -, _, -, rfl⟩ := hS0'
    rfl
  have hrl : S.rows.length = C.elements.length := by rw [hel, List.length_map]
  have hrl' : S'.rows.length = C'.elements.length := by rw [hel', List.length_map]
  have hfe : ∀ i < C.elements.length, ∀ b, fc' i b = fc i b ∧ ft' i b = ft i b := by
    intro i hi b
    have g1 : S.rows[i]? = some (S.rows[i]'(by omega)) := List.getElem?_eq_getElem _
    have g2 : S'.rows[i]? = some (S'.rows[i]'(by omega)) := List.getElem?_eq_getElem _
    obtain ⟨e1, e2, e3, e4, e5⟩ := hrel i _ _ g1 g2
    refine friction_det (b := b) (b' := b) ?_ hax ?_ ?_ e5 (hfr i _ b g1) (hfr' i _ b g2)
    · unfold owners
      rw [e1, e2, hlay, hlay']
    · rw [e1, e2]
    · rw [e3, e4]
  refine ⟨C, C', S', fc', ft', C.elements.length, N.length, hC, hC', ⟨N, hN, hNt⟩, rfl, hlen, hn, hk, hsame, htip, ?_, hS', hfr', ?_, ?_⟩
  · rw [← hlen]; exact hde'
  · rw [hsh, total_congr (fun i hi b => (hfe i hi b).1), total_congr (fun i hi b => (hfe i hi b).2)]
    rfl
  · rw [hsh', hlen]
    rfl

/-- Two Models: the pile `p'` is the pile `p` with further sections `E` below its tip, the mesh may have further elevations `y`
there, everything else is the same.  Soil models as for C64; random numbers may differ.  The last condition says that the pile
tables give the old elements the same diameter; `one_diameter` shows it for piles of one diameter. -/
structure Given (p p' : Pile ℝ) (E : List (Section ℝ)) (sp : SoilProfile) (x2 y : List ℝ) (c top tip tip' : ℝ)
    (table table' : List (ℝ × Section ℝ)) (env env' : Draws) : Prop where
  sections : p'.sections = p.sections ++ E
  setup : Weight.Setup p sp.geometry x2 c top tip
  setup' : Weight.Setup p' sp.geometry (x2 ++ y) c top tip'
  longer : tip' < tip
  extra : ∀ x ∈ y, x ≤ tip
  sorted : Model.SortedRows p table
  sorted' : Model.SortedRows p' table'
  draws : GoodDraws env ∧ GoodTip env ∧ GoodLateral env
  draws' : GoodDraws env' ∧ GoodTip env' ∧ GoodLateral env'
  axial : ∀ l ∈ sp.layers, ∀ m, l.axial = some m → Sound (l.top - l.bottom) m
  lateral : ∀ l ∈ sp.layers, ∀ m, l.lateral = some m → ∀ s ∈ p.sections, Spec.Sound.Lateral s.diameter (sp.topElevation - tip) m
  lateral' : ∀ l ∈ sp.layers, ∀ m, l.lateral = some m → ∀ s ∈ p'.sections, Spec.Sound.Lateral s.diameter (sp.topElevation - tip') m
  diameter : ∀ z, tip < z → z ≤ top → (Model.elementSection table' z).map (·.diameter) = (Model.elementSection table z).map (·.diameter)

theorem one_diameter {p p' : Pile ℝ} {E : List (Section ℝ)} (hE : p'.sections = p.sections ++ E) {top d : ℝ} (hp : p.topElevation = some top)
    (hd : ∀ s ∈ p'.sections, s.diameter = d) {table table' : List (ℝ × Section ℝ)} (ht : Model.SortedRows p table)
    (ht' : Model.SortedRows p' table') {z : ℝ} (hz : z ≤ top) :
    (Model.elementSection table' z).map (·.diameter) = some d ∧ (Model.elementSection table z).map (·.diameter) = some d := by
  obtain ⟨f, hf, hft⟩ : ∃ f ∈ p.sections, f.top = top := by
    unfold Pile.topElevation at hp
    cases hs : p.sections with
    | nil => rw [hs] at hp; cases hp
    | cons f l =>
      rw [hs] at hp
      exact ⟨f, by simp, by simpa using hp⟩
  exact ⟨StubSoil.one_diameter hd (f := f) (by rw [hE]; exact List.mem_append_left _ hf) ht' (by rw [hft]; exact hz),
    StubSoil.one_diameter (fun s hs => hd s (by rw [hE]; exact List.mem_append_left _ hs)) hf ht (by rw [hft]; exact hz)⟩

variable {p p' : Pile ℝ} {E : List (Section ℝ)} {sp : SoilProfile} {x2 y : List ℝ} {c top tip tip' : ℝ}
  {table table' : List (ℝ × Section ℝ)} {env env' : Draws}

/-- **C102, the shaft resistance of the longer pile.** Both Models report one.  The mesh of the longer pile continues that of the
shorter one; its shaft resistance is that of the shorter one, plus a quarter of the limit friction at the lower end of the old last
element times the difference in length between the first new and the last old element, plus the frictions of the new elements
times the lengths attributed to their ends.  `fc` and `ft` are the limit frictions of the longer pile. -/
theorem C102_shaft (g : Given p p' E sp x2 y c top tip tip' table table' env env') (w : Switches) :
    ∃ C C' S' fc ft n k, Both p p' sp x2 y c tip w table table' env env' C C' S' fc ft n k ∧
      ∃ q t, Capacity.shaft p sp x2 c w table env = some (q, t) ∧
        Capacity.shaft p' sp (x2 ++ y) c w table' env' = some
          (q + fc (n - 1) true * ((tip - Capacity.elevations C' (n + 1)) - (Capacity.elevations C' (n - 1) - tip)) / 4
             + ∑ i ∈ Finset.range k, (fc (n + i) false * (span (Capacity.elevations C') (n + k) (n + i) / 2)
                + fc (n + i) true * (span (Capacity.elevations C') (n + k) (n + i + 1) / 2)),
           t + ft (n - 1) true * ((tip - Capacity.elevations C' (n + 1)) - (Capacity.elevations C' (n - 1) - tip)) / 4
             + ∑ i ∈ Finset.range k, (ft (n + i) false * (span (Capacity.elevations C') (n + k) (n + i) / 2)
                + ft (n + i) true * (span (Capacity.elevations C') (n + k) (n + i + 1) / 2))) := by
  obtain ⟨C, C', S', fc, ft, n, k, b⟩ := both g.sections g.setup g.setup' g.longer g.extra w g.sorted g.sorted' g.diameter g.draws g.draws'
    g.axial g.lateral g.lateral'
  refine ⟨C, C', S', fc, ft, n, k, b, _, _, b.short, ?_⟩
  rw [b.long, total_longer b.old b.new b.same (fun _ _ _ => rfl), total_longer b.old b.new b.same (fun _ _ _ => rfl)]
  have e1 := b.same n le_rfl
  have e2 := b.same (n - 1) (by omega)
  rw [← e1, ← e2, b.tip_eq]

/-- **C102, a longer pile does not lose shaft resistance, inside a layer.** A pile of one diameter made longer in a layer that
contains its old tip: neither resistance becomes less, each grows at least by the limit friction at the old tip times half of the
first new element; in clay with a positive multiplier the resistance in compression grows.  Partial: the old tip lies strictly inside
a layer; see `C102_violated_boundary`. -/
theorem C102_grows_partial (g : Given p p' E sp x2 y c top tip tip' table table' env env') (w : Switches) {d : ℝ}
    (hd : ∀ s ∈ p'.sections, s.diameter = d) {l : SoilLayer} (hl : l ∈ sp.layers) (h1 : l.bottom < tip) (h2 : tip < l.top) :
    ∃ q t q' t', Capacity.shaft p sp x2 c w table env = some (q, t) ∧ Capacity.shaft p' sp (x2 ++ y) c w table' env' = some (q', t') ∧
      q ≤ q' ∧ t ≤ t' ∧ (∀ m, l.axial = some (.clay m) → 0 < m.tMul → w.distributedAxial = true → q < q') := by
  obtain ⟨C, C', S', fc, ft, n, k, b⟩ := both g.sections g.setup g.setup' g.longer g.extra w g.sorted g.sorted' g.diameter g.draws g.draws'
    g.axial g.lateral g.lateral'
  obtain ⟨D, hD, hm⟩ := Weight.mesh_facts g.setup'
  rw [b.mesh', Option.some.injEq] at hD
  subst hD
  obtain ⟨D, S, water, hD, hS, -, -, hlay, -, -, -, helts, hrows, -⟩ := C54_mesh g.setup' w table'
  rw [b.mesh', Option.some.injEq] at hD
  subst hD
  rw [b.input_eq, Option.some.injEq] at hS
  subst hS
  obtain ⟨hde, hnl⟩ := elevations_descending hm
  have hn := b.old
  have hk := b.new
  have hnum := b.number'
  have hlen : S'.rows.length = n + k := by rw [← b.number', ← helts, List.length_map]
  have hel : ∀ i (hi : i < S'.rows.length), S'.rows[i].top = Capacity.elevations C' i ∧ S'.rows[i].bottom = Capacity.elevations C' (i + 1) := by
    intro i hi
    have q1 : C'.elements[i]? = some (S'.rows[i].top, S'.rows[i].bottom) := by
      rw [← helts, List.getElem?_map, List.getElem?_eq_getElem hi]
      rfl
    rw [hm.pairs] at q1
    unfold Mesh.pairs at q1
    rw [List.getElem?_zip_eq_some, List.getElem?_tail] at q1
    unfold Capacity.elevations
    rw [List.getD_eq_getElem?_getD, List.getD_eq_getElem?_getD, q1.1, q1.2]
    exact ⟨rfl, rfl⟩
  have i1 : n - 1 < S'.rows.length := by omega
  have i2 : n < S'.rows.length := by omega
  obtain ⟨a1, a2⟩ := hel (n - 1) i1
  obtain ⟨c1, c2⟩ := hel n i2
  rw [Nat.sub_add_cancel hn, b.tip_eq] at a2
  rw [b.tip_eq] at c1
  obtain ⟨r1, s1, t1, -⟩ := hrows _ (List.getElem_mem i1)
  obtain ⟨r2, s2, t2, -⟩ := hrows _ (List.getElem_mem i2)
  have m1 : (S'.rows[n - 1].top, S'.rows[n - 1].bottom) ∈ C'.elements := by rw [← helts]; exact List.mem_map.2 ⟨_, List.getElem_mem i1, rfl⟩
  have m2 : (S'.rows[n].top, S'.rows[n].bottom) ∈ C'.elements := by rw [← helts]; exact List.mem_map.2 ⟨_, List.getElem_mem i2, rfl⟩
  have hll : l.toLayer ∈ sp.geometry.layers := List.mem_map.2 ⟨l, hl, rfl⟩
  have o1 : S'.rows[n - 1].top ≤ l.top := by
    rcases hm.layCut _ m1 _ hll l.top (Or.inl rfl) with h0 | h0
    · simp only [a2] at h0
      exact absurd h0 (not_le.2 h2)
    · exact h0
  have o2 : l.bottom ≤ S'.rows[n].bottom := by
    rcases hm.layCut _ m2 _ hll l.bottom (Or.inr rfl) with h0 | h0
    · exact h0
    · simp only [c1] at h0
      exact absurd h0 (not_le.2 h1)
  have hltop := (hm.lays _ hll).2.2
  obtain ⟨⟨l1, w1⟩, -, x1⟩ := t1 (o1.trans hltop)
  obtain ⟨⟨l2, w2⟩, x2, -⟩ := t2 (by rw [c1]; exact h2.le.trans hltop)
  have v1 : owners S' S'.rows[n - 1] = [l] := by
    have : l ∈ owners S' S'.rows[n - 1] := List.mem_filter.2 ⟨by rw [hlay]; exact hl, decide_eq_true ⟨o1, by rw [a2]; exact h1.le⟩⟩
    rw [w1, List.mem_singleton] at this
    rw [w1, this]
  have v2 : owners S' S'.rows[n] = [l] := by
    have : l ∈ owners S' S'.rows[n] := List.mem_filter.2 ⟨by rw [hlay]; exact hl, decide_eq_true ⟨by rw [c1]; exact h2.le, o2⟩⟩
    rw [w2, List.mem_singleton] at this
    rw [w2, this]
  have z1 := (hm.range _ m1).1
  have z2 := (hm.range _ m2).1
  obtain ⟨y1, -⟩ := one_diameter g.sections g.setup.head hd g.sorted g.sorted' z1
  obtain ⟨y2, -⟩ := one_diameter g.sections g.setup.head hd g.sorted g.sorted' z2
  obtain ⟨f1, f2⟩ := friction_det (b := true) (b' := false) (v2.trans v1.symm) rfl (by simp only [Bool.false_eq_true, if_true, if_false]; rw [c1, a2])
    (by simp only [Bool.false_eq_true, if_true, if_false]; rw [x2, x1, c1, a2]) (by rw [s1, s2]; exact y2.trans y1.symm)
    (b.frictions (n - 1) _ true (List.getElem?_eq_getElem i1)) (b.frictions n _ false (List.getElem?_eq_getElem i2))
  have hnn : ∀ i < n + k, ∀ bb, 0 ≤ fc i bb ∧ 0 ≤ ft i bb := fun i hi bb =>
    friction_nonneg (b.frictions i _ bb (List.getElem?_eq_getElem (by omega : i < S'.rows.length)))
  have hstep : 0 < Capacity.elevations C n - Capacity.elevations C' (n + 1) := by
    rw [← b.same n le_rfl]
    exact sub_pos.2 (b.falling n (by omega))
  have k1 := (total_never_less hn hk b.same b.falling (f := fc) (f' := fc) (fun _ _ _ => rfl) (fun i hi bb => (hnn i hi bb).1)).1 f1.ge
  have k2 := (total_never_less hn hk b.same b.falling (f := ft) (f' := ft) (fun _ _ _ => rfl) (fun i hi bb => (hnn i hi bb).2)).1 f2.ge
  refine ⟨_, _, _, _, b.short, b.long, ?_, ?_, ?_⟩
  · have := mul_nonneg (hnn (n - 1) (by omega) true).1 (half_pos hstep).le
    linarith
  · have := mul_nonneg (hnn (n - 1) (by omega) true).2 (half_pos hstep).le
    linarith
  · intro m hm1 hm2 hw
    have hax : S'.distributedAxial = true := by
      have hS0' := b.input_eq
      simp only [input, Option.bind_eq_bind, Option.bind_eq_some_iff, Option.pure_def, Option.some.injEq] at hS0'
      obtain ⟨rows', g2, _, -, _, -, _, -, rfl⟩ := hS0'
      exact hw
    have := friction_pos v1 hm1 hm2 hax (b.frictions (n - 1) _ true (List.getElem?_eq_getElem i1))
    have := mul_pos this (half_pos hstep)
    linarith

/-- **C102, a longer pile does not lose shaft resistance, elements not shorter than before.** Whatever the layers, if the first new
element is not shorter than the old last one. -/
theorem C102_even_partial (g : Given p p' E sp x2 y c top tip tip' table table' env env') (w : Switches)
    (hlen : ∀ C C', Mesh.getCoordinates p (some sp.geometry) x2 c = some C → Mesh.getCoordinates p' (some sp.geometry) (x2 ++ y) c = some C' →
      Capacity.elevations C' (C.elements.length - 1) - tip ≤ tip - Capacity.elevations C' (C.elements.length + 1)) :
    ∃ q t q' t', Capacity.shaft p sp x2 c w table env = some (q, t) ∧ Capacity.shaft p' sp (x2 ++ y) c w table' env' = some (q', t') ∧
      q ≤ q' ∧ t ≤ t' := by
  obtain ⟨C, C', S', fc, ft, n, k, b⟩ := both g.sections g.setup g.setup' g.longer g.extra w g.sorted g.sorted' g.diameter g.draws g.draws'
    g.axial g.lateral g.lateral'
  obtain ⟨D, S, water, hD, hS, -, -, -, -, -, -, helts, -, -⟩ := C54_mesh g.setup' w table'
  rw [b.mesh', Option.some.injEq] at hD
  subst hD
  rw [b.input_eq, Option.some.injEq] at hS
  subst hS
  have hnl : S'.rows.length = n + k := by rw [← b.number', ← helts, List.length_map]
  have hnn : ∀ i < n + k, ∀ bb, 0 ≤ fc i bb ∧ 0 ≤ ft i bb := fun i hi bb =>
    friction_nonneg (b.frictions i _ bb (List.getElem?_eq_getElem (by omega : i < S'.rows.length)))
  have h0 := hlen C C' b.mesh b.mesh'
  rw [b.number, b.same (n - 1) (by omega), ← b.tip_eq, b.same n le_rfl] at h0
  exact ⟨_, _, _, _, b.short, b.long,
    (total_never_less b.old b.new b.same b.falling (f := fc) (f' := fc) (fun _ _ _ => rfl) (fun i hi bb => (hnn i hi bb).1)).2 h0,
    (total_never_less b.old b.new b.same b.falling (f := ft) (f' := ft) (fun _ _ _ => rfl) (fun i hi bb => (hnn i hi bb).2)).2 h0⟩

/-- **C102 is violated at a layer boundary.** The old tip stands on the boundary between a clay layer with an axial model and soil
without one, and the pile is made longer by less than the length of its last element (one new element): the reported shaft resistance
in compression becomes less, by a quarter of the limit friction at the old tip times the difference of the two lengths. -/
theorem C102_violated_boundary (g : Given p p' E sp x2 y c top tip tip' table table' env env') (w : Switches) (hw : w.distributedAxial = true)
    {l : SoilLayer} (hl : l ∈ sp.layers) (h1 : l.bottom = tip) {m : Axial.ClayAxial} (hm1 : l.axial = some (.clay m)) (hm2 : 0 < m.tMul)
    (hoff : ∀ l ∈ sp.layers, l.bottom < tip → l.axial = none)
    (hlen : ∀ C C', Mesh.getCoordinates p (some sp.geometry) x2 c = some C → Mesh.getCoordinates p' (some sp.geometry) (x2 ++ y) c = some C' →
      tip - Capacity.elevations C' (C.elements.length + 1) < Capacity.elevations C' (C.elements.length - 1) - tip) :
    ∃ C C' q t q' t' f, Mesh.getCoordinates p (some sp.geometry) x2 c = some C ∧
      Mesh.getCoordinates p' (some sp.geometry) (x2 ++ y) c = some C' ∧ Capacity.shaft p sp x2 c w table env = some (q, t) ∧
      Capacity.shaft p' sp (x2 ++ y) c w table' env' = some (q', t') ∧ 0 < f ∧
      q' = q - f * ((Capacity.elevations C' (C.elements.length - 1) - tip) - (tip - Capacity.elevations C' (C.elements.length + 1))) / 4 ∧
      q' < q := by
  obtain ⟨C, C', S', fc, ft, n, k, b⟩ := both g.sections g.setup g.setup' g.longer g.extra w g.sorted g.sorted' g.diameter g.draws g.draws'
    g.axial g.lateral g.lateral'
  obtain ⟨D, hD, hm⟩ := Weight.mesh_facts g.setup'
  rw [b.mesh', Option.some.injEq] at hD
  subst hD
  obtain ⟨D, S, water, hD, hS, -, -, hlay, -, -, -, helts, hrows, -⟩ := C54_mesh g.setup' w table'
  rw [b.mesh', Option.some.injEq] at hD
  subst hD
  rw [b.input_eq, Option.some.injEq] at hS
  subst hS
  have hn := b.old
  have hk := b.new
  have hrl : S'.rows.length = n + k := by rw [← b.number', ← helts, List.length_map]
  obtain ⟨hde, hnl⟩ := elevations_descending hm
  have hnum := b.number'
  have hel : ∀ i (hi : i < S'.rows.length), S'.rows[i].top = Capacity.elevations C' i ∧ S'.rows[i].bottom = Capacity.elevations C' (i + 1) := by
    intro i hi
    have q1 : C'.elements[i]? = some (S'.rows[i].top, S'.rows[i].bottom) := by
      rw [← helts, List.getElem?_map, List.getElem?_eq_getElem hi]
      rfl
    rw [hm.pairs] at q1
    unfold Mesh.pairs at q1
    rw [List.getElem?_zip_eq_some, List.getElem?_tail] at q1
    unfold Capacity.elevations
    rw [List.getD_eq_getElem?_getD, List.getD_eq_getElem?_getD, q1.1, q1.2]
    exact ⟨rfl, rfl⟩
  have hax : S'.distributedAxial = true := by
    have hS0' := b.input_eq
    simp only [input, Option.bind_eq_bind, Option.bind_eq_some_iff, Option.pure_def, Option.some.injEq] at hS0'
    obtain ⟨rows', g2, _, -, _, -, _, -, rfl⟩ := hS0'
    exact hw
  -- the old last element
  have i1 : n - 1 < S'.rows.length := by omega
  obtain ⟨a1, a2⟩ := hel (n - 1) i1
  rw [Nat.sub_add_cancel hn, b.tip_eq] at a2
  obtain ⟨r1, s1, t1, -⟩ := hrows _ (List.getElem_mem i1)
  have m1 : (S'.rows[n - 1].top, S'.rows[n - 1].bottom) ∈ C'.elements := by rw [← helts]; exact List.mem_map.2 ⟨_, List.getElem_mem i1, rfl⟩
  have hll : l.toLayer ∈ sp.geometry.layers := List.mem_map.2 ⟨l, hl, rfl⟩
  have hlt := (hm.lays _ hll).1
  have o1 : S'.rows[n - 1].top ≤ l.top := by
    rcases hm.layCut _ m1 _ hll l.top (Or.inl rfl) with h0 | h0
    · simp only [a2] at h0
      rw [← h1] at h0
      exact absurd h0 (not_le.2 hlt)
    · exact h0
  obtain ⟨⟨l1, w1⟩, -, -⟩ := t1 (o1.trans (hm.lays _ hll).2.2)
  have v1 : owners S' S'.rows[n - 1] = [l] := by
    have : l ∈ owners S' S'.rows[n - 1] := List.mem_filter.2 ⟨by rw [hlay]; exact hl, decide_eq_true ⟨o1, by rw [a2, h1]⟩⟩
    rw [w1, List.mem_singleton] at this
    rw [w1, this]
  have hf := friction_pos v1 hm1 hm2 hax (b.frictions (n - 1) _ true (List.getElem?_eq_getElem i1))
  -- the new elements
  have hzero : ∀ i < k, ∀ bb, fc (n + i) bb = 0 := by
    intro i hi bb
    have i2 : n + i < S'.rows.length := by omega
    have F := b.frictions (n + i) _ bb (List.getElem?_eq_getElem i2)
    have hno : ∀ l' ∈ owners S' S'.rows[n + i], l'.axial = none := by
      intro l' hl'
      obtain ⟨q1, q2⟩ := List.mem_filter.1 hl'
      have q2 : _ ∧ _ := of_decide_eq_true q2
      refine hoff l' (by rw [← hlay]; exact q1) (lt_of_le_of_lt q2.2 ?_)
      rw [(hel (n + i) i2).2]
      have dec : ∀ j ≤ k, Capacity.elevations C' (n + j) ≤ tip ∧ (0 < j → Capacity.elevations C' (n + j) < tip) := by
        intro j
        induction j with
        | zero => intro _; exact ⟨b.tip_eq.le, fun h => absurd h (lt_irrefl _)⟩
        | succ j ih =>
          intro hj
          have := b.falling (n + j) (by omega)
          have := lt_of_lt_of_le this (ih (by omega)).1
          exact ⟨this.le, fun _ => this⟩
      exact (dec (i + 1) (by omega)).2 (by omega)
    generalize hq : fc (n + i) bb = q at F
    generalize ft (n + i) bb = t at F
    cases F with
    | outside => rfl
    | off => rfl
    | clay l' m' y' sig Su f j1 j2 =>
      have := hno l' (by rw [j1]; exact List.mem_singleton.2 rfl)
      rw [this] at j2
      cases j2
    | sand l' m' y' sig de lim f j1 j2 =>
      have := hno l' (by rw [j1]; exact List.mem_singleton.2 rfl)
      rw [this] at j2
      cases j2
  have h0 := hlen C C' b.mesh b.mesh'
  have hsum : total (Capacity.elevations C') (n + k) fc = total (Capacity.elevations C) n fc
      - fc (n - 1) true * ((Capacity.elevations C' (n - 1) - tip) - (tip - Capacity.elevations C' (n + 1))) / 4 := by
    rw [total_longer hn hk b.same (fun _ _ _ => rfl), Finset.sum_eq_zero, ← b.same n le_rfl, ← b.same (n - 1) (by omega), b.tip_eq]
    · ring
    · intro i hi
      rw [hzero i (Finset.mem_range.1 hi), hzero i (Finset.mem_range.1 hi)]
      ring
  rw [b.number] at h0
  refine ⟨C, C', _, _, _, _, fc (n - 1) true, b.mesh, b.mesh', b.short, b.long, hf, ?_, ?_⟩
  · rw [b.number]; exact hsum
  · rw [hsum]
    have := mul_pos hf (sub_pos.2 h0)
    linarith

/-! ## Examples -/

/-- A pile from 1 m above the ground to -10 m. -/
noncomputable def shortPile : Pile ℝ := ⟨[⟨1, -10, 2, 1 / 20⟩], Pile.steel⟩

/-- The same pile, half a metre longer. -/
noncomputable def longPile : Pile ℝ := ⟨[⟨1, -10, 2, 1 / 20⟩, ⟨-10, -21 / 2, 2, 1 / 20⟩], Pile.steel⟩

/-- Clay down to `t`, soil without axial model below. -/
noncomputable def ground (t : ℝ) : SoilProfile := ⟨0, -1, [⟨⟨0, t, 18⟩, none, some (.clay axialExample)⟩, ⟨⟨t, -20, 18⟩, none, none⟩]⟩

theorem setup_any (t : ℝ) (ht : t = -10 ∨ t = -15) (p : Pile ℝ) (b : ℝ) (hb : b = -10 ∨ b = -21 / 2) (hp : p.bottomElevation = some b)
    (hs : ∀ s ∈ p.sections, s = ⟨1, -10, 2, 1 / 20⟩ ∨ b = -21 / 2 ∧ s = ⟨-10, -21 / 2, 2, 1 / 20⟩) (hne : p.sections ≠ [])
    (hst : Spec.Pile.Stacked p.sections) (hmat : p.material = Pile.steel) (hh : p.topElevation = some 1) :
    Weight.Setup p (ground t).geometry [] 2 1 b where
  coarse := by norm_num
  tip_eq := hp
  built := by
    intro l hl
    simp only [ground, SoilProfile.geometry, List.map_cons, List.map_nil, List.mem_cons, List.not_mem_nil, or_false] at hl
    rw [Soil.built_iff]
    rcases ht with rfl | rfl <;> rcases hl with rfl | rfl <;> norm_num
  exact := by
    rcases ht with rfl | rfl <;> norm_num [ground, SoilProfile.geometry, Soil.sortLayers, Py.sortedBy]
  first := ⟨⟨0, t, 18⟩, by rcases ht with rfl | rfl <;> norm_num [ground, SoilProfile.geometry, Soil.sortLayers, Py.sortedBy], rfl⟩
  last := ⟨⟨t, -20, 18⟩, by rcases ht with rfl | rfl <;> norm_num [ground, SoilProfile.geometry, Soil.sortLayers, Py.sortedBy],
    by rcases hb with rfl | rfl <;> norm_num⟩
  grid := by
    rintro r (⟨s, hm, h⟩ | ⟨sp', hsp, l, hl, h, h'⟩ | h)
    · rcases hs s hm with rfl | ⟨-, rfl⟩ <;> rcases h with rfl | rfl
      · exact ⟨10000, by norm_num⟩
      · exact ⟨-100000, by norm_num⟩
      · exact ⟨-100000, by norm_num⟩
      · exact ⟨-105000, by norm_num⟩
    · cases hsp
      simp only [ground, SoilProfile.geometry, List.map_cons, List.map_nil, List.mem_cons, List.not_mem_nil, or_false] at hl
      have htg : Spec.Mesh.OnGrid t := by
        rcases ht with rfl | rfl
        · exact ⟨-100000, by norm_num⟩
        · exact ⟨-150000, by norm_num⟩
      rcases hl with rfl | rfl <;> rcases h with rfl | rfl
      · exact ⟨0, by norm_num⟩
      · exact htg
      · exact htg
      · exact ⟨-200000, by norm_num⟩
    · cases h
  ground := by rcases hb with rfl | rfl <;> norm_num [ground, SoilProfile.geometry]
  extra := by simp
  sections := by
    intro s hm
    rcases hs s hm with rfl | ⟨rfl, rfl⟩
    · rcases hb with rfl | rfl <;> norm_num
    · norm_num
  pile := by
    have hbt : ∀ s ∈ p.sections, Spec.Pile.Built s := by
      intro s hm
      rcases hs s hm with rfl | ⟨-, rfl⟩ <;> exact (Pile.built_iff _).2 (by norm_num)
    have := Pile.sort_of_stacked p.sections _ (List.Perm.refl _) (fun s hs => ((Pile.built_iff s).1 (hbt s hs)).1) hst
    refine ⟨p.sections, Pile.steel, (Pile.mkPile_ok_iff _ _ _).2 ⟨hne, by rw [this]; exact hst, ?_⟩, hbt⟩
    rw [this, ← hmat]
  head := hh
  below := by norm_num [ground, SoilProfile.geometry]
  inside := by simp

theorem given_example (t : ℝ) (ht : t = -10 ∨ t = -15) : Given shortPile longPile [⟨-10, -21 / 2, 2, 1 / 20⟩] (ground t) [] [] 2 1 (-10) (-21 / 2)
    (Model.stableRows shortPile) (Model.stableRows longPile) drawsExample drawsExample where
  sections := rfl
  setup := setup_any t ht _ _ (Or.inl rfl) rfl (by simp [shortPile]) (by simp [shortPile]) (by simp [shortPile, Spec.Pile.Stacked]) rfl rfl
  setup' := setup_any t ht _ _ (Or.inr rfl) rfl (by simp [longPile]) (by simp [longPile]) (by simp [longPile, Spec.Pile.Stacked]) rfl rfl
  longer := by norm_num
  extra := by simp
  sorted := ⟨Py.sortedBy_perm _ _, Py.sortedBy_pairwise _ _⟩
  sorted' := ⟨Py.sortedBy_perm _ _, Py.sortedBy_pairwise _ _⟩
  draws := ⟨good_draws.1, good_draws.2, good_lateral⟩
  draws' := ⟨good_draws.1, good_draws.2, good_lateral⟩
  axial := by
    intro l hl m hm
    simp only [ground, List.mem_cons, List.not_mem_nil, or_false] at hl
    rcases hl with rfl | rfl
    · cases hm
      refine ⟨fun d _ _ => ⟨50, ?_, by norm_num⟩, ?_, ?_, ?_, ?_, ?_⟩
      · rcases ht with rfl | rfl <;> norm_num [axialExample, Params.layered, Params.topBottom]
      all_goals norm_num [axialExample]
    · cases hm
  lateral := by
    intro l hl m hm
    simp only [ground, List.mem_cons, List.not_mem_nil, or_false] at hl
    rcases hl with rfl | rfl <;> cases hm
  lateral' := by
    intro l hl m hm
    simp only [ground, List.mem_cons, List.not_mem_nil, or_false] at hl
    rcases hl with rfl | rfl <;> cases hm
  diameter := by
    intro z _ hz
    obtain ⟨h1, h2⟩ := one_diameter (p := shortPile) (p' := longPile) (E := [⟨-10, -21 / 2, 2, 1 / 20⟩]) (d := 2) rfl (top := 1) rfl
      (by simp [longPile]) (table := Model.stableRows shortPile) (table' := Model.stableRows longPile)
      ⟨Py.sortedBy_perm _ _, Py.sortedBy_pairwise _ _⟩ ⟨Py.sortedBy_perm _ _, Py.sortedBy_pairwise _ _⟩ hz
    rw [h1, h2]

/-- Inside the clay the longer pile has more shaft resistance. -/
example : ∃ q t q' t', Capacity.shaft shortPile (ground (-15)) [] 2 ⟨false, false, true, false, false, true⟩ (Model.stableRows shortPile) drawsExample
      = some (q, t) ∧
    Capacity.shaft longPile (ground (-15)) ([] ++ []) 2 ⟨false, false, true, false, false, true⟩ (Model.stableRows longPile) drawsExample
      = some (q', t') ∧ q < q' ∧ t ≤ t' := by
  obtain ⟨q, t, q', t', h1, h2, -, h4, h5⟩ := C102_grows_partial (given_example (-15) (Or.inr rfl)) ⟨false, false, true, false, false, true⟩ (d := 2)
    (by simp [longPile]) (l := ⟨⟨0, -15, 18⟩, none, some (.clay axialExample)⟩) (by simp [ground]) (by norm_num) (by norm_num)
  exact ⟨q, t, q', t', h1, h2, h5 _ rfl (by norm_num [axialExample]) rfl, h4⟩

theorem mesh_list (p : Pile ℝ) (soil : Option (Soil.Profile ℝ)) (x2 : List ℝ) (c tip : ℝ) (hc : 0 < c) (ht : p.bottomElevation = some tip)
    (L : List ℝ) (hL : L.Pairwise (· > ·)) (hm : ∀ r, r ∈ L ↔ Spec.Mesh.Required p tip soil x2 r) :
    Mesh.exactNodes p soil x2 c = some (Mesh.refine c L) := by
  have d := Py.uniqueDesc_pairwise (Mesh.pileElevations p ++ Mesh.soilElevations tip soil ++ x2)
  change (Mesh.primary p tip soil x2).Pairwise _ at d
  rw [Mesh.exactNodes_eq p soil x2 c tip hc ht]
  have : Mesh.primary p tip soil x2 = L := by
    refine List.Perm.eq_of_pairwise (fun a b _ _ hab hba => absurd hab (not_lt.2 (le_of_lt hba))) d hL ?_
    rw [List.perm_ext_iff_of_nodup (d.imp fun h => h.ne') (hL.imp fun h => h.ne')]
    intro x
    rw [Mesh.mem_primary p soil x2 tip (hpb := ht), hm]
  rw [this]

theorem divider (a b : ℝ) (d : ℕ) (hd : 0 < d) (h1 : (a - b) / d ≤ 2) (h2 : 2 * ((d : ℝ) - 1) < a - b) (hab : b < a) :
    Mesh.dividerOf 2 a b = d := by
  obtain ⟨-, k1, k2, k3⟩ := Mesh.dividerOf_spec 2 a b (by norm_num) hab
  rcases lt_trichotomy (Mesh.dividerOf 2 a b) d with h | h | h
  · have q1 : (Mesh.dividerOf 2 a b : ℝ) ≤ d - 1 := by
      have : Mesh.dividerOf 2 a b + 1 ≤ d := h
      have : ((Mesh.dividerOf 2 a b + 1 : ℕ) : ℝ) ≤ d := by exact_mod_cast this
      push_cast at this
      linarith
    have q0 : (0 : ℝ) < Mesh.dividerOf 2 a b := by exact_mod_cast k1
    rw [div_le_iff₀ q0] at k2
    linarith
  · exact h
  · have := k3 d hd h
    linarith

theorem nodes_example : Mesh.exactNodes shortPile (some (ground (-10)).geometry) [] 2 = some [1, 0, -2, -4, -6, -8, -10] ∧
    Mesh.exactNodes longPile (some (ground (-10)).geometry) [] 2 = some [1, 0, -2, -4, -6, -8, -10, -21 / 2] := by
  have d1 : Mesh.dividerOf 2 (1 : ℝ) 0 = 1 := divider 1 0 1 (by norm_num) (by norm_num) (by norm_num) (by norm_num)
  have d2 : Mesh.dividerOf 2 (0 : ℝ) (-10) = 5 := divider 0 (-10) 5 (by norm_num) (by norm_num) (by norm_num) (by norm_num)
  have d3 : Mesh.dividerOf 2 (-10 : ℝ) (-21 / 2) = 1 := divider (-10) (-21 / 2) 1 (by norm_num) (by norm_num) (by norm_num) (by norm_num)
  constructor
  · rw [mesh_list shortPile _ [] 2 (-10) (by norm_num) rfl [1, 0, -10] (by norm_num)]
    · simp only [Mesh.refine, d1, d2, List.range_succ, List.range_zero, List.nil_append, List.cons_append, List.map_cons, List.map_nil]
      norm_num
    · intro r
      simp only [Spec.Mesh.Required, shortPile, ground, SoilProfile.geometry, List.mem_cons, List.not_mem_nil, or_false, List.map_cons, List.map_nil,
        Option.some.injEq, exists_eq_left', exists_eq_or_imp, exists_eq_left]
      constructor
      · rintro (rfl | rfl | rfl) <;> norm_num
      · rintro ((rfl | rfl) | ⟨rfl | rfl, h⟩ | ⟨rfl | rfl, h⟩) <;> first | (norm_num at h; done) | norm_num
  · rw [mesh_list longPile _ [] 2 (-21 / 2) (by norm_num) rfl [1, 0, -10, -21 / 2] (by norm_num)]
    · simp only [Mesh.refine, d1, d2, d3, List.range_succ, List.range_zero, List.nil_append, List.cons_append, List.map_cons, List.map_nil]
      norm_num
    · intro r
      simp only [Spec.Mesh.Required, longPile, ground, SoilProfile.geometry, List.mem_cons, List.not_mem_nil, or_false, List.map_cons, List.map_nil,
        Option.some.injEq, exists_eq_left', exists_eq_or_imp, exists_eq_left]
      constructor
      · rintro (rfl | rfl | rfl | rfl) <;> norm_num
      · rintro (((rfl | rfl) | (rfl | rfl)) | ⟨rfl | rfl, h⟩ | ⟨rfl | rfl, h⟩) <;> first | (norm_num at h; done) | norm_num

/-- Half a metre of pile below the clay: less shaft resistance than without it. -/
example : ∃ q t q' t', Capacity.shaft shortPile (ground (-10)) [] 2 ⟨false, false, true, false, false, true⟩ (Model.stableRows shortPile) drawsExample
      = some (q, t) ∧
    Capacity.shaft longPile (ground (-10)) ([] ++ []) 2 ⟨false, false, true, false, false, true⟩ (Model.stableRows longPile) drawsExample
      = some (q', t') ∧ q' < q := by
  have hr : ∀ n : ℤ, Mesh.round4 ((n : ℝ) / 10000) = n / 10000 := Mesh.round4_grid
  have r1 := hr (-80000)
  have r2 := hr (-105000)
  norm_num at r1 r2
  obtain ⟨C, C', q, t, q', t', f, -, -, h1, h2, -, -, h3⟩ := C102_violated_boundary (given_example (-10) (Or.inl rfl))
    ⟨false, false, true, false, false, true⟩ rfl (l := ⟨⟨0, -10, 18⟩, none, some (.clay axialExample)⟩) (by simp [ground]) rfl
    (m := axialExample) rfl (by norm_num [axialExample])
    (by
      intro l hl hb
      simp only [ground, List.mem_cons, List.not_mem_nil, or_false] at hl
      rcases hl with rfl | rfl
      · norm_num at hb
      · rfl)
    (by
      intro C C' hC hC'
      unfold Mesh.getCoordinates at hC hC'
      rw [nodes_example.1] at hC
      rw [List.append_nil, nodes_example.2] at hC'
      cases hC
      cases hC'
      simp only [Capacity.elevations, Mesh.pairs, List.map_cons, List.map_nil, List.tail_cons, List.zip_cons_cons, List.zip_nil_right, List.length_cons,
        List.length_nil, List.getD_cons_succ, List.getD_cons_zero, Nat.zero_add, Nat.add_one_sub_one, Nat.reduceAdd]
      norm_num [r1, r2])
  exact ⟨q, t, q', t', h1, h2, h3⟩

end friction
end OpenPile.Props.Longer

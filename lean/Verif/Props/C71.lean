import Verif.Props.C70

/-!
# C71: the contour plot of an assembly

Every point of the plot shows the requested component of the panel drawn there, the colour scale
covers all panels of the group and its limits are attained.  Violated by four documented components
and by panels without a position.
-/

namespace Verif.C71

open Model Spec

variable {S : Shape ℝ} {M : Multi ℝ} {c : ℕ → ℝ} {groupOf : ℕ → String} {group : String}
  {x0 y0 : ℕ → Option ℝ} {A : PlotArgs ℝ} {cores : ℕ} {D : Drawing ℝ}

/-- The component with the given name of the field of panel `p`, in the coordinates of the panel. -/
noncomputable def component (S : Shape ℝ) (M : Multi ℝ) (c : ℕ → ℝ) (p : ℕ) (vec : String)
    (x y : ℝ) : ℝ :=
  C70.component S (M.shells p).panel (C70.start M p) (C70.abd M p) c true vec x y

/-! ## Helpers -/

theorem loop {α : Type} {f : ℕ → List ℝ → List ℝ → Except Fail α} {R : List (Sampled ℝ α)}
    (h : plotLoop M groupOf group A f = .ok R) :
    R.map Sampled.panel = M.panels.filter (fun p => groupOf p = group) ∧
    ∀ s ∈ R, s.x.length = s.y.length ∧ f s.panel s.x s.y = .ok s.val ∧
      (A.gauss = false →
        C70.Covers (M.shells s.panel).pan.a (M.shells s.panel).pan.b A.gridx A.gridy s.x s.y) := by
  unfold plotLoop at h
  split at h
  · rename_i hg
    refine ⟨C47.panels_of _ _ _ _ _ _ _ _ h, fun s hs => ?_⟩
    obtain ⟨s0, h0⟩ : ∃ s0, R.head? = some s0 := by
      cases R with
      | nil => cases hs
      | cons a _ => exact ⟨a, rfl⟩
    obtain ⟨e1, e2, e3⟩ := C47.first _ _ _ _ _ _ _ _ h s0 h0 s hs
    exact ⟨by rw [e1, e2, C47.mesh_length], e3, fun h => absurd (hg.symm.trans h) (by simp)⟩
  · obtain ⟨h1, h2⟩ := C70.loop_ok h
    exact ⟨h1, fun s hs => ⟨(h2 s hs).1.1.trans (h2 s hs).1.2.1.symm, (h2 s hs).2,
      fun _ => (h2 s hs).1⟩⟩

theorem draw {R P : List (Sampled ℝ (List ℝ))} (h : drawAll x0 y0 R = .ok P) :
    P.map Sampled.panel = R.map Sampled.panel ∧ P.flatMap Sampled.val = R.flatMap Sampled.val ∧
    ∀ t ∈ P, ∃ s ∈ R, ∃ X Y, x0 s.panel = some X ∧ y0 s.panel = some Y ∧
      t = ⟨s.panel, s.y.map (· + Y), s.x.map (· + X), s.val⟩ := by
  induction R generalizing P with
  | nil => cases h; exact ⟨rfl, rfl, fun t ht => nomatch ht⟩
  | cons s R ih =>
    unfold drawAll at h
    split at h
    · rename_i Y X hY hX
      obtain ⟨rest, hr, h⟩ := bind_ok.1 h
      cases h
      obtain ⟨h1, h2, h3⟩ := ih hr
      refine ⟨by rw [List.map_cons, List.map_cons, h1], by rw [List.flatMap_cons, List.flatMap_cons, h2],
        fun t ht => ?_⟩
      rcases List.mem_cons.1 ht with rfl | ht
      · exact ⟨s, List.mem_cons_self, X, Y, hX, hY, rfl⟩
      · obtain ⟨s', hs', e⟩ := h3 t ht
        exact ⟨s', List.mem_cons_of_mem _ hs', e⟩
    · cases h

theorem fold_min (l : List ℝ) (a : ℝ) :
    l.foldl min a ∈ a :: l ∧ ∀ v ∈ a :: l, l.foldl min a ≤ v := by
  induction l generalizing a with
  | nil => simp
  | cons b l ih =>
    obtain ⟨h1, h2⟩ := ih (min a b)
    rw [List.foldl_cons]
    refine ⟨?_, ?_⟩
    · rcases List.mem_cons.1 h1 with h | h
      · rw [h]
        rcases min_choice a b with e | e <;> rw [e] <;> simp
      · exact List.mem_cons_of_mem _ (List.mem_cons_of_mem _ h)
    · have h0 := h2 (min a b) List.mem_cons_self
      intro v hv
      rcases List.mem_cons.1 hv with rfl | hv
      · exact h0.trans (min_le_left _ _)
      rcases List.mem_cons.1 hv with rfl | hv
      · exact h0.trans (min_le_right _ _)
      · exact h2 v (List.mem_cons_of_mem _ hv)

theorem fold_max (l : List ℝ) (a : ℝ) :
    l.foldl max a ∈ a :: l ∧ ∀ v ∈ a :: l, v ≤ l.foldl max a := by
  induction l generalizing a with
  | nil => simp
  | cons b l ih =>
    obtain ⟨h1, h2⟩ := ih (max a b)
    rw [List.foldl_cons]
    refine ⟨?_, ?_⟩
    · rcases List.mem_cons.1 h1 with h | h
      · rw [h]
        rcases max_choice a b with e | e <;> rw [e] <;> simp
      · exact List.mem_cons_of_mem _ (List.mem_cons_of_mem _ h)
    · have h0 := h2 (max a b) List.mem_cons_self
      intro v hv
      rcases List.mem_cons.1 hv with rfl | hv
      · exact (le_max_left _ _).trans h0
      rcases List.mem_cons.1 hv with rfl | hv
      · exact (le_max_right _ _).trans h0
      · exact h2 v (List.mem_cons_of_mem _ hv)

/-- `lo` is the given limit, or the least of the values. -/
def Low (given : Option ℝ) (vals : List ℝ) (lo : ℝ) : Prop :=
  given = some lo ∨ given = none ∧ lo ∈ vals ∧ ∀ v ∈ vals, lo ≤ v

/-- `hi` is the given limit, or the greatest of the values. -/
def High (given : Option ℝ) (vals : List ℝ) (hi : ℝ) : Prop :=
  given = some hi ∨ given = none ∧ hi ∈ vals ∧ ∀ v ∈ vals, v ≤ hi

theorem low {given : Option ℝ} {vals : List ℝ} {lo : ℝ}
    (h : given.elim (minOf vals) .ok = .ok lo) : Low given vals lo := by
  cases given with
  | some a => cases h; exact .inl rfl
  | none =>
    cases vals with
    | nil => cases h
    | cons a l => cases h; exact .inr ⟨rfl, fold_min l a⟩

theorem high {given : Option ℝ} {vals : List ℝ} {hi : ℝ}
    (h : given.elim (maxOf vals) .ok = .ok hi) : High given vals hi := by
  cases given with
  | some a => cases h; exact .inl rfl
  | none =>
    cases vals with
    | nil => cases h
    | cons a l => cases h; exact .inr ⟨rfl, fold_max l a⟩

/-- `finishPlot` in one statement. -/
theorem finish {R : List (Sampled ℝ (List ℝ))} (h : finishPlot x0 y0 A R = .ok D) :
    Low A.vecmin (R.flatMap Sampled.val) D.vecmin ∧ High A.vecmax (R.flatMap Sampled.val) D.vecmax ∧
    (A.dataOnly = true → D.parts = [] ∧ D.levels = []) ∧
    (A.dataOnly = false → drawAll x0 y0 R = .ok D.parts ∧
      D.levels = linspace D.vecmin D.vecmax A.numLevels) := by
  obtain ⟨lo, hlo, h⟩ := bind_ok.1 h
  obtain ⟨hi, hhi, h⟩ := bind_ok.1 h
  split at h
  · rename_i hd
    cases h
    exact ⟨low hlo, high hhi, fun _ => ⟨rfl, rfl⟩, fun h => absurd (hd.symm.trans h) (by simp)⟩
  · rename_i hd
    obtain ⟨parts, hp, h⟩ := bind_ok.1 h
    cases h
    exact ⟨low hlo, high hhi, fun h => absurd h hd, fun _ => ⟨hp, rfl⟩⟩

/-- The part `s` holds the component with the given name at its points. -/
def Holds (S : Shape ℝ) (M : Multi ℝ) (c : ℕ → ℝ) (A : PlotArgs ℝ) (s : Sampled ℝ (List ℝ)) : Prop :=
  s.x.length = s.y.length ∧ (A.gauss = false →
    C70.Covers (M.shells s.panel).pan.a (M.shells s.panel).pan.b A.gridx A.gridy s.x s.y) ∧
  s.val.length = s.x.length ∧ ∀ (k : ℕ) (px py : ℝ), s.x[k]? = some px → s.y[k]? = some py →
    s.val[k]? = some (component S M c s.panel A.vec px py)

theorem pick_holds {α : Type} {get : α → ℕ → ℝ} {n i : ℕ} (hi : i < n) {g : ℕ → ℕ → ℝ → ℝ → ℝ}
    (hg : ∀ p x y, g p i x y = component S M c p A.vec x y) {R : List (Sampled ℝ (List α))}
    (h : ∀ s ∈ R, s.x.length = s.y.length ∧ C70.Values get n (g s.panel) s.x s.y s.val ∧
      (A.gauss = false →
        C70.Covers (M.shells s.panel).pan.a (M.shells s.panel).pan.b A.gridx A.gridy s.x s.y)) :
    (pick (get · i) R).map Sampled.panel = R.map Sampled.panel ∧
    ∀ s ∈ pick (get · i) R, Holds S M c A s := by
  refine ⟨by simp [pick, Function.comp_def], fun t ht => ?_⟩
  obtain ⟨s, hs, rfl⟩ := List.mem_map.1 ht
  obtain ⟨h1, ⟨h2, h3⟩, h4⟩ := h s hs
  refine ⟨h1, h4, by simpa using h2, fun k px py hx hy => ?_⟩
  obtain ⟨o, ho, hv⟩ := h3 k px py hx hy
  change (s.val.map (get · i))[k]? = _
  rw [List.getElem?_map, ho, Option.map_some, hv i hi, hg]

theorem computed (hS : S.C2) (hc : 0 < cores)
    (h : M.plot S groupOf x0 y0 c group A cores = .ok D) :
    ∃ R : List (Sampled ℝ (List ℝ)),
      R.map Sampled.panel = M.panels.filter (fun p => groupOf p = group) ∧
      (∀ s ∈ R, Holds S M c A s) ∧ finishPlot x0 y0 A R = .ok D := by
  unfold Multi.plot at h
  split at h
  · rename_i i hi
    obtain ⟨R, hR, h⟩ := bind_ok.1 h
    obtain ⟨h1, h2⟩ := loop hR
    have hi5 := C70.displs_lt hi
    obtain ⟨h3, h4⟩ := pick_holds (A := A) (R := R) (get := UVW.get) hi5
      (g := fun p => C70.displ S (M.shells p).panel (C70.start M p) c)
      (fun p x y => C70.displs_at hi) fun s hs =>
      ⟨(h2 s hs).1, C70.uvw_of hS hc (h2 s hs).1 (h2 s hs).2.1, (h2 s hs).2.2⟩
    exact ⟨_, h3.trans h1, h4, h⟩
  · rename_i i _ hi
    obtain ⟨R, hR, h⟩ := bind_ok.1 h
    obtain ⟨h1, h2⟩ := loop hR
    split at h
    · rename_i hi6
      obtain ⟨h3, h4⟩ := pick_holds (A := A) (R := R) (get := id) hi6
        (g := fun p => C70.strain S (M.shells p).panel (C70.start M p) c true)
        (fun p x y => C70.strains_at hi hi6) fun s hs =>
        ⟨(h2 s hs).1, C70.strain_of (NL := true) hS hc (h2 s hs).1 (h2 s hs).2.1, (h2 s hs).2.2⟩
      exact ⟨_, h3.trans h1, h4, h⟩
    · cases h
  · rename_i i _ _ hi
    obtain ⟨R, hR, h⟩ := bind_ok.1 h
    obtain ⟨h1, h2⟩ := loop hR
    split at h
    · rename_i hi6
      obtain ⟨h3, h4⟩ := pick_holds (A := A) (R := R) (get := id) hi6
        (g := fun p => C70.stress S (M.shells p).panel (C70.start M p) (C70.abd M p) c true)
        (fun p x y => C70.stresses_at hi hi6) fun s hs => by
          obtain ⟨F, hF, hv⟩ := C70.stress_of (NL := true) hS hc (h2 s hs).1 (h2 s hs).2.1
          have e : C70.abd M s.panel = F := by simp [C70.abd, hF]
          exact ⟨(h2 s hs).1, by simpa only [e] using hv, (h2 s hs).2.2⟩
      exact ⟨_, h3.trans h1, h4, h⟩
    · cases h
  · cases h

/-! ## What the plot shows -/

/-- The panels of the group are drawn once each and in order.  Each point of a contour, moved back by
the position of the panel (the plot has `y` to the right and `x` upwards), is a point of the panel and
shows the requested component of the panel's field there. -/
theorem shown (hS : S.C2) (hc : 0 < cores) (hd : A.dataOnly = false)
    (h : M.plot S groupOf x0 y0 c group A cores = .ok D) :
    D.parts.map Sampled.panel = M.panels.filter (fun p => groupOf p = group) ∧
    ∀ t ∈ D.parts, ∃ X Y, x0 t.panel = some X ∧ y0 t.panel = some Y ∧
      t.x.length = t.y.length ∧ t.val.length = t.x.length ∧
      ∀ (k : ℕ) (px py : ℝ), t.x[k]? = some px → t.y[k]? = some py →
        t.val[k]? = some (component S M c t.panel A.vec (py - X) (px - Y)) := by
  obtain ⟨R, h1, h2, hf⟩ := computed hS hc h
  obtain ⟨hdraw, -⟩ := (finish hf).2.2.2 hd
  obtain ⟨e1, -, e2⟩ := draw hdraw
  refine ⟨e1.trans h1, fun t ht => ?_⟩
  obtain ⟨s, hs, X, Y, hX, hY, rfl⟩ := e2 t ht
  obtain ⟨l1, -, l2, hv⟩ := h2 s hs
  refine ⟨X, Y, hX, hY, by simp [l1], by simp [l1, l2], fun k px py hx hy => ?_⟩
  rw [List.getElem?_map, Option.map_eq_some_iff] at hx hy
  obtain ⟨qy, hqy, rfl⟩ := hx
  obtain ⟨qx, hqx, rfl⟩ := hy
  rw [add_sub_cancel_right, add_sub_cancel_right]
  exact hv k qx qy hqx hqy

/-- Without given integration points each contour is a grid over the whole panel, moved to the
position of the panel. -/
theorem spread (hS : S.C2) (hc : 0 < cores) (hd : A.dataOnly = false) (hg : A.gauss = false)
    (h : M.plot S groupOf x0 y0 c group A cores = .ok D) (t : Sampled ℝ (List ℝ)) (ht : t ∈ D.parts) :
    ∃ X Y, x0 t.panel = some X ∧ y0 t.panel = some Y ∧
      C70.Covers (M.shells t.panel).pan.a (M.shells t.panel).pan.b A.gridx A.gridy
        (t.y.map (· - X)) (t.x.map (· - Y)) := by
  obtain ⟨R, h1, h2, hf⟩ := computed hS hc h
  obtain ⟨hdraw, -⟩ := (finish hf).2.2.2 hd
  obtain ⟨-, -, e2⟩ := draw hdraw
  obtain ⟨s, hs, X, Y, hX, hY, rfl⟩ := e2 t ht
  refine ⟨X, Y, hX, hY, ?_⟩
  simpa [List.map_map, Function.comp_def] using (h2 s hs).2.1 hg

/-- All values drawn. -/
def values (D : Drawing ℝ) : List ℝ := D.parts.flatMap Sampled.val

/-- One scale for all panels: its limits are the given ones, or the least and the greatest value drawn
in any panel of the group. -/
theorem scale (hS : S.C2) (hc : 0 < cores) (hd : A.dataOnly = false)
    (h : M.plot S groupOf x0 y0 c group A cores = .ok D) :
    Low A.vecmin (values D) D.vecmin ∧ High A.vecmax (values D) D.vecmax ∧
    D.levels.length = A.numLevels ∧
    ∀ i < A.numLevels, D.levels[i]?
      = some (D.vecmin + i * ((D.vecmax - D.vecmin) / (A.numLevels - 1))) := by
  obtain ⟨R, h1, h2, hf⟩ := computed hS hc h
  obtain ⟨hl, hh, -, hD⟩ := finish hf
  obtain ⟨hdraw, hlev⟩ := hD hd
  obtain ⟨-, e, -⟩ := draw hdraw
  rw [values, e]
  refine ⟨hl, hh, by rw [hlev]; simp [linspace], fun i hi => ?_⟩
  rw [hlev]
  simp [linspace, hi]

/-- With at least two levels the first and the last one are the limits, so without given limits every
value drawn lies between the first and the last level. -/
theorem between (hS : S.C2) (hc : 0 < cores) (hd : A.dataOnly = false) (n : ℕ)
    (hn : A.numLevels = n + 2) (hlo : A.vecmin = none) (hhi : A.vecmax = none)
    (h : M.plot S groupOf x0 y0 c group A cores = .ok D) :
    ∃ lo hi, D.levels[0]? = some lo ∧ D.levels[n + 1]? = some hi ∧ ∀ v ∈ values D, lo ≤ v ∧ v ≤ hi := by
  obtain ⟨hl, hh, -, hlev⟩ := scale hS hc hd h
  have h0 := hlev 0 (by omega)
  have h1 := hlev (n + 1) (by omega)
  have e : (A.numLevels : ℝ) - 1 = ((n + 1 : ℕ) : ℝ) := by rw [hn]; push_cast; ring
  rw [e, mul_div_cancel₀ _ (Nat.cast_ne_zero.2 (by omega)), add_sub_cancel] at h1
  rw [Nat.cast_zero, zero_mul, add_zero] at h0
  refine ⟨_, _, h0, h1, fun v hv => ⟨?_, ?_⟩⟩
  · rcases hl with hl | ⟨-, -, hl⟩
    · rw [hlo] at hl; cases hl
    · exact hl v hv
  · rcases hh with hh | ⟨-, -, hh⟩
    · rw [hhi] at hh; cases hh
    · exact hh v hv

/-- With `calc_data_only` nothing is drawn and the limits are those of the drawing. -/
theorem data_only (h : M.plot S groupOf x0 y0 c group A cores = .ok D) (hd : A.dataOnly = false) :
    M.plot S groupOf x0 y0 c group { A with dataOnly := true } cores
      = .ok ⟨D.vecmin, D.vecmax, [], []⟩ := by
  have key : ∀ R : List (Sampled ℝ (List ℝ)), finishPlot x0 y0 A R = .ok D →
      finishPlot x0 y0 { A with dataOnly := true } R = .ok ⟨D.vecmin, D.vecmax, [], []⟩ := by
    intro R h
    obtain ⟨lo, hlo, h⟩ := bind_ok.1 h
    obtain ⟨hi, hhi, h⟩ := bind_ok.1 h
    rw [hd, if_neg (by simp)] at h
    obtain ⟨parts, -, h⟩ := bind_ok.1 h
    cases h
    exact bind_ok.2 ⟨lo, hlo, bind_ok.2 ⟨hi, hhi, rfl⟩⟩
  unfold Multi.plot at h ⊢
  split at h
  · rename_i i hi
    obtain ⟨R, hR, h⟩ := bind_ok.1 h
    simp only [hi]
    exact bind_ok.2 ⟨R, hR, key _ h⟩
  · rename_i i hi1 hi2
    obtain ⟨R, hR, h⟩ := bind_ok.1 h
    split at h
    · rename_i hi6
      simp only [hi1, hi2, if_pos hi6]
      exact bind_ok.2 ⟨R, hR, key _ h⟩
    · cases h
  · rename_i i hi1 hi2 hi3
    obtain ⟨R, hR, h⟩ := bind_ok.1 h
    split at h
    · rename_i hi6
      simp only [hi1, hi2, hi3, if_pos hi6]
      exact bind_ok.2 ⟨R, hR, key _ h⟩
    · cases h
  · cases h

/-! ## What is refused -/

/-- A name that is not documented gives `ValueError`. -/
theorem unknown (S : Shape ℝ) (M : Multi ℝ) (c : ℕ → ℝ) (groupOf : ℕ → String) (group : String)
    (x0 y0 : ℕ → Option ℝ) (A : PlotArgs ℝ) (cores : ℕ)
    (h : A.vec ∉ ["u", "v", "w", "phix", "phiy", "exx", "eyy", "gxy", "kxx", "kyy", "kxy", "gyz", "gxz",
      "Nxx", "Nyy", "Nxy", "Mxx", "Myy", "Mxy", "Qy", "Qx"]) :
    M.plot S groupOf x0 y0 c group A cores = .error (.raised .valueError) := by
  have hn : ∀ l : List String, A.vec ∉ l → l.idxOf? A.vec = none := fun l hl =>
    List.idxOf?_eq_none_iff.2 hl
  simp only [List.mem_cons, not_or] at h
  have h1 := hn displs (by simp [displs, h])
  have h2 := hn strains (by simp [strains, h])
  have h3 := hn stresses (by simp [stresses, h])
  unfold Multi.plot
  rw [h1, h2, h3]

/-- The claim that every documented component can be drawn is violated: the four transverse shear
components never are. -/
theorem transverse_violated (S : Shape ℝ) (M : Multi ℝ) (c : ℕ → ℝ) (groupOf : ℕ → String)
    (group : String) (x0 y0 : ℕ → Option ℝ) (A : PlotArgs ℝ) (cores : ℕ)
    (h : A.vec ∈ ["gyz", "gxz", "Qy", "Qx"]) :
    ¬ ∃ D, M.plot S groupOf x0 y0 c group A cores = .ok D := by
  rintro ⟨D, hD⟩
  unfold Multi.plot at hD
  simp only [List.mem_cons, List.not_mem_nil, or_false] at h
  rcases h with e | e | e | e <;> rw [e] at hD
  · obtain ⟨R, -, hD⟩ := bind_ok.1 (show (plotLoop M groupOf group A (strainOf S M c cores 1)
      >>= fun _ => Except.error Fail.keyError) = .ok D from hD)
    cases hD
  · obtain ⟨R, -, hD⟩ := bind_ok.1 (show (plotLoop M groupOf group A (strainOf S M c cores 1)
      >>= fun _ => Except.error Fail.keyError) = .ok D from hD)
    cases hD
  · obtain ⟨R, -, hD⟩ := bind_ok.1 (show (plotLoop M groupOf group A (stressOf S M c cores 1)
      >>= fun _ => Except.error Fail.keyError) = .ok D from hD)
    cases hD
  · obtain ⟨R, -, hD⟩ := bind_ok.1 (show (plotLoop M groupOf group A (stressOf S M c cores 1)
      >>= fun _ => Except.error Fail.keyError) = .ok D from hD)
    cases hD

/-- Panels made by hand have no position (`x0 = None`) until the user sets one: no drawing. -/
theorem no_position (hS : S.C2) (hc : 0 < cores) (hd : A.dataOnly = false)
    (hp : ∃ p ∈ M.panels, groupOf p = group ∧ (x0 p = none ∨ y0 p = none)) :
    ¬ ∃ D, M.plot S groupOf x0 y0 c group A cores = .ok D := by
  rintro ⟨D, h⟩
  obtain ⟨p, hp, hg, hn⟩ := hp
  obtain ⟨h1, h2⟩ := shown hS hc hd h
  have : p ∈ D.parts.map Sampled.panel := by
    rw [h1]; exact List.mem_filter.2 ⟨hp, by simpa using hg⟩
  obtain ⟨t, ht, rfl⟩ := List.mem_map.1 this
  obtain ⟨X, Y, hX, hY, -⟩ := h2 t ht
  rcases hn with hn | hn
  · rw [hn] at hX; cases hX
  · rw [hn] at hY; cases hY

/-- Every displacement component of placed panels of known models can be drawn, if the group has a
panel and the grid a point. -/
theorem exists_displ (S : Shape ℝ) (M : Multi ℝ) (c : ℕ → ℝ) (groupOf : ℕ → String) (group : String)
    (x0 y0 : ℕ → Option ℝ) (A : PlotArgs ℝ) (cores : ℕ) (hS : S.C2) (hc : 0 < cores)
    (hv : A.vec ∈ ["u", "v", "w", "phix", "phiy"]) (hg : A.gauss = false)
    (hx : 0 < A.gridx) (hy : 0 < A.gridy)
    (hne : ∃ p ∈ M.panels, groupOf p = group)
    (hp : ∀ p ∈ M.panels, groupOf p = group → (∃ k, (M.shells p).model.bind kindOf = some k) ∧
      (∃ X, x0 p = some X) ∧ ∃ Y, y0 p = some Y) :
    ∃ D, M.plot S groupOf x0 y0 c group A cores = .ok D := by
  obtain ⟨i, hi⟩ : ∃ i, displs.idxOf? A.vec = some i := by
    cases h : displs.idxOf? A.vec with
    | some i => exact ⟨i, rfl⟩
    | none => exact absurd hv (List.idxOf?_eq_none_iff.1 h)
  obtain ⟨R, hR⟩ := C70.uvw_exists S M c groupOf group A.gridx A.gridy cores fun p h1 h2 => (hp p h1 h2).1
  obtain ⟨h1, h2⟩ := C70.uvw hS hc hR
  unfold Multi.plot
  rw [hi]
  have hl : plotLoop M groupOf group A (uvwOf S M c cores) = .ok R := by
    unfold plotLoop
    rw [hg]
    exact hR
  simp only [hl]
  change ∃ D, finishPlot x0 y0 A (pick (UVW.get · i) R) = .ok D
  have hlen : (pick (UVW.get · i) R).flatMap Sampled.val ≠ [] := by
    obtain ⟨p, hp1, hp2⟩ := hne
    have : p ∈ R.map Sampled.panel := by rw [h1]; exact List.mem_filter.2 ⟨hp1, by simpa using hp2⟩
    obtain ⟨s, hs, rfl⟩ := List.mem_map.1 this
    obtain ⟨hc1, hv1, -⟩ := h2 s hs
    have hpos : 0 < s.val.length := by
      rw [hv1, hc1.1]; exact Nat.mul_pos hy hx
    intro he
    rw [List.flatMap_eq_nil_iff] at he
    have := he ⟨s.panel, s.x, s.y, s.val.map (UVW.get · i)⟩ (List.mem_map.2 ⟨s, hs, rfl⟩)
    simp only [List.map_eq_nil_iff] at this
    rw [this] at hpos
    exact absurd hpos (by simp)
  have hdraw : ∀ Q : List (Sampled ℝ (List ℝ)),
      (∀ s ∈ Q, s.panel ∈ M.panels ∧ groupOf s.panel = group) → ∃ P, drawAll x0 y0 Q = .ok P := by
    intro Q hQ
    induction Q with
    | nil => exact ⟨_, rfl⟩
    | cons s Q ih =>
      obtain ⟨P, hP⟩ := ih fun s hs => hQ s (List.mem_cons_of_mem _ hs)
      obtain ⟨m, g⟩ := hQ s List.mem_cons_self
      obtain ⟨-, ⟨X, hX⟩, Y, hY⟩ := hp _ m g
      unfold drawAll
      rw [hX, hY]
      simp only [hP]
      exact ⟨_, rfl⟩
  obtain ⟨P, hP⟩ := hdraw (pick (UVW.get · i) R) fun s hs => by
    obtain ⟨t, ht, rfl⟩ := List.mem_map.1 hs
    have : t.panel ∈ R.map Sampled.panel := List.mem_map.2 ⟨t, ht, rfl⟩
    rw [h1] at this
    simpa using List.mem_filter.1 this
  have lo : ∃ lo, A.vecmin.elim (minOf ((pick (UVW.get · i) R).flatMap Sampled.val)) .ok
      = (.ok lo : Except Fail ℝ) := by
    cases A.vecmin with
    | some a => exact ⟨a, rfl⟩
    | none =>
      cases hq : (pick (UVW.get · i) R).flatMap Sampled.val with
      | nil => exact absurd hq hlen
      | cons a l => exact ⟨_, rfl⟩
  have hi : ∃ hi, A.vecmax.elim (maxOf ((pick (UVW.get · i) R).flatMap Sampled.val)) .ok
      = (.ok hi : Except Fail ℝ) := by
    cases A.vecmax with
    | some a => exact ⟨a, rfl⟩
    | none =>
      cases hq : (pick (UVW.get · i) R).flatMap Sampled.val with
      | nil => exact absurd hq hlen
      | cons a l => exact ⟨_, rfl⟩
  obtain ⟨lo, hlo⟩ := lo
  obtain ⟨hi, hhi⟩ := hi
  by_cases hd : A.dataOnly = true
  · exact ⟨_, bind_ok.2 ⟨lo, hlo, bind_ok.2 ⟨hi, hhi, by rw [if_pos hd]; rfl⟩⟩⟩
  · exact ⟨_, bind_ok.2 ⟨lo, hlo, bind_ok.2 ⟨hi, hhi, by
      rw [if_neg hd, hP]; rfl⟩⟩⟩

/-! ## Concrete case -/

/-- The panels of `C70.wing` side by side. -/
noncomputable def posY (p : ℕ) : Option ℝ := if p = 4 then some 0 else some 2

theorem wing_plot : ∃ D, C70.wing.plot (bardellShape ℝ) C70.groups (fun _ => some 0) posY (fun k => k)
    "skin" {} 4 = .ok D :=
  exists_displ _ _ _ _ _ _ _ _ _ bardellShape_C2 (by norm_num) (by simp) rfl (by norm_num)
    (by norm_num) ⟨4, show 4 ∈ [4, 7, 0] by simp, rfl⟩ fun p _ _ =>
    ⟨C70.wing_kind p, ⟨0, rfl⟩, by
      by_cases h : p = 4
      · exact ⟨0, if_pos h⟩
      · exact ⟨2, if_neg h⟩⟩

example : ∃ D, C70.wing.plot (bardellShape ℝ) C70.groups (fun _ => some 0) posY (fun k => k)
      "skin" {} 4 = .ok D ∧ D.parts.map Sampled.panel = [4, 0] ∧
    ∃ lo hi, D.levels[0]? = some lo ∧ D.levels[399]? = some hi ∧ ∀ v ∈ values D, lo ≤ v ∧ v ≤ hi := by
  obtain ⟨D, h⟩ := wing_plot
  exact ⟨D, h, (shown bardellShape_C2 (by norm_num) rfl h).1,
    between bardellShape_C2 (by norm_num) rfl 398 rfl rfl rfl h⟩

example : ({ vec := "Qx" } : PlotArgs ℝ).vec ∈ ["gyz", "gxz", "Qy", "Qx"] := by simp

example : ({ vec := "sigma" } : PlotArgs ℝ).vec ∉ ["u", "v", "w", "phix", "phiy", "exx", "eyy", "gxy",
    "kxx", "kyy", "kxy", "gyz", "gxz", "Nxx", "Nyy", "Nxy", "Mxx", "Myy", "Mxy", "Qy", "Qx"] := by
  decide

example : ∃ p ∈ C70.wing.panels, C70.groups p = "skin" ∧
    ((fun _ => none : ℕ → Option ℝ) p = none ∨ posY p = none) :=
  ⟨4, show 4 ∈ [4, 7, 0] by simp, rfl, .inl rfl⟩

end Verif.C71

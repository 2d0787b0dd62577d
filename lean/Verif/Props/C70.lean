import Verif.Model.MultiPlot
import Verif.Props.C30
import Verif.Props.C31
import Verif.Props.C32
import Verif.Props.C40Conn
import Verif.Props.C47
import Verif.Props.C62
import Verif.Proofs.Joint
import Verif.Spec.VonKarman
import Verif.Basic.Exc

/-!
# C70: fields of an assembly on grids

`MultiDomain.uvw`, `strain`, `stress` give, for every panel of the group and in the order of the
panels, the field of that panel on a grid over its own length and width, computed from its own block
of the Ritz vector.  Partial: with `NLterms` the shear strain has the product of the slopes twice.
-/

namespace Verif.C70

open Model Spec Finset

/-! ## The loop -/

section

variable {K : Type} [Field K] [LinearOrder K] {α : Type}

/-- The points of the part are those of a `gridy` by `gridx` grid over `[0, a] × [0, b]`. -/
def Covers (a b : K) (gridx gridy : ℕ) (x y : List K) : Prop :=
  x.length = gridy * gridx ∧ y.length = gridy * gridx ∧ ∀ i < gridx, ∀ j < gridy,
    x[j * gridx + i]? = some (i * (a / (gridx - 1))) ∧
    y[j * gridx + i]? = some (j * (b / (gridy - 1)))

theorem covers (a b : K) (gridx gridy : ℕ) :
    Covers a b gridx gridy (meshX (linspace 0 a gridx) (linspace 0 b gridy))
      (meshY (linspace 0 a gridx) (linspace 0 b gridy)) := by
  refine ⟨?_, ?_, fun i hi j hj => ⟨?_, ?_⟩⟩
  · simp [meshX, linspace, Function.comp_def]
  · simp [meshY, linspace, Function.comp_def]
  · rw [meshX, C62.flatMap_get _ gridx _ (fun _ => by simp [linspace]) i j hi
      (by simpa [linspace] using hj)]
    simp [linspace, hi]
  · rw [meshY, C62.flatMap_get _ gridx _ (fun _ => by simp [linspace]) i j hi
      (by simpa [linspace] using hj)]
    simp [linspace, hi]

/-- The first and the last point are opposite corners of the panel. -/
theorem Covers.corners [CharZero K] {a b : K} {gridx gridy : ℕ} {x y : List K}
    (h : Covers a b (gridx + 2) (gridy + 2) x y) :
    (x[0]? = some 0 ∧ y[0]? = some 0) ∧
    x[(gridy + 1) * (gridx + 2) + (gridx + 1)]? = some a ∧
    y[(gridy + 1) * (gridx + 2) + (gridx + 1)]? = some b := by
  have cancel : ∀ (n : ℕ) (z : K), ((n + 1 : ℕ) : K) * (z / (((n + 2 : ℕ) : K) - 1)) = z := by
    intro n z
    have : ((n + 2 : ℕ) : K) - 1 = ((n + 1 : ℕ) : K) := by push_cast; ring
    rw [this, mul_div_cancel₀]
    exact Nat.cast_ne_zero.2 (by omega)
  obtain ⟨-, -, h⟩ := h
  refine ⟨?_, ?_⟩
  · have := h 0 (by omega) 0 (by omega)
    simpa using this
  · have := h (gridx + 1) (by omega) (gridy + 1) (by omega)
    rwa [cancel, cancel] at this

theorem loop_ok {M : Multi K} {groupOf : ℕ → String} {group : String}
    {f : ℕ → List K → List K → Except Fail α} {gridx gridy : ℕ} {ps : List ℕ}
    {R : List (Sampled K α)} (h : gridLoop M groupOf group f gridx gridy ps = .ok R) :
    R.map Sampled.panel = ps.filter (fun p => groupOf p = group) ∧
    ∀ s ∈ R, Covers (M.shells s.panel).pan.a (M.shells s.panel).pan.b gridx gridy s.x s.y ∧
      f s.panel s.x s.y = .ok s.val := by
  induction ps generalizing R with
  | nil => cases h; exact ⟨rfl, fun s hs => nomatch hs⟩
  | cons p ps ih =>
    unfold gridLoop at h
    split at h
    · rename_i hg
      rw [List.filter_cons_of_neg (by simpa using hg)]
      exact ih h
    · rename_i hg
      split at h
      · cases h
      obtain ⟨v, hv, h⟩ := bind_ok.1 h
      obtain ⟨rest, hr, h⟩ := bind_ok.1 h
      cases h
      obtain ⟨h1, h2⟩ := ih hr
      refine ⟨by rw [List.map_cons, h1, List.filter_cons_of_pos (by simpa using hg)], ?_⟩
      intro s hs
      rcases List.mem_cons.1 hs with rfl | hs
      · exact ⟨covers _ _ _ _, hv⟩
      · exact h2 s hs

theorem loop_exists (M : Multi K) (groupOf : ℕ → String) (group : String)
    (f : ℕ → List K → List K → Except Fail α) (gridx gridy : ℕ) (ps : List ℕ)
    (hf : ∀ p ∈ ps, groupOf p = group →
      (∃ k, (M.shells p).model.bind kindOf = some k) ∧ ∀ x y, ∃ v, f p x y = .ok v) :
    ∃ R, gridLoop M groupOf group f gridx gridy ps = .ok R := by
  induction ps with
  | nil => exact ⟨_, rfl⟩
  | cons p ps ih =>
    obtain ⟨rest, hr⟩ := ih fun p hp => hf p (List.mem_cons_of_mem _ hp)
    unfold gridLoop
    split
    · exact ⟨rest, hr⟩
    · rename_i hg
      obtain ⟨⟨k, hk⟩, hv⟩ := hf p List.mem_cons_self (by simpa using hg)
      obtain ⟨v, hv⟩ := hv (meshX (linspace 0 (M.shells p).pan.a gridx)
        (linspace 0 (M.shells p).pan.b gridy)) (meshY (linspace 0 (M.shells p).pan.a gridx)
        (linspace 0 (M.shells p).pan.b gridy))
      rw [hk]
      simp only [hv, hr]
      exact ⟨_, rfl⟩

end

/-! ## The fields, stated with derivatives of the displacements -/

variable {S : Shape ℝ} {M : Multi ℝ} {c : ℕ → ℝ}

/-- First Ritz constant of the panel. -/
def start (M : Multi ℝ) (p : ℕ) : ℕ := ((M.place p).map Place.col0).getD 0

/-- `u`, `v`, `w` and the rotations `-w,x`, `-w,y`. -/
noncomputable def displ (S : Shape ℝ) (P : Panel ℝ) (s0 : ℕ) (c : ℕ → ℝ) (i : ℕ) (x y : ℝ) : ℝ :=
  match i with
  | 0 => u S P s0 c 0 x y
  | 1 => u S P s0 c 1 x y
  | 2 => u S P s0 c 2 x y
  | 3 => - dx (u S P s0 c 2) x y
  | _ => - dy (u S P s0 c 2) x y

/-- Linear strains, or von Karman strains with the excess of the shear strain (`C31`). -/
noncomputable def strain (S : Shape ℝ) (P : Panel ℝ) (s0 : ℕ) (c : ℕ → ℝ) (NL : Bool) (s : ℕ)
    (x y : ℝ) : ℝ :=
  if NL then vkStrain (C31.curv P) S P s0 c s x y
    + (if s = 2 then dx (u S P s0 c 2) x y * dy (u S P s0 c 2) x y else 0)
  else linStrain (C31.curv P) S P s0 c s x y

/-- Stress resultants of the matrix `F`. -/
noncomputable def stress (S : Shape ℝ) (P : Panel ℝ) (s0 : ℕ) (F : ℕ → ℕ → ℝ) (c : ℕ → ℝ) (NL : Bool)
    (s : ℕ) (x y : ℝ) : ℝ := ∑ t ∈ range 6, F s t * strain S P s0 c NL t x y

/-- The values `val` are those of `g` at the points, component by component. -/
def Values {α : Type} (get : α → ℕ → ℝ) (comps : ℕ) (g : ℕ → ℝ → ℝ → ℝ) (x y : List ℝ)
    (val : List α) : Prop :=
  val.length = x.length ∧ ∀ (k : ℕ) (px py : ℝ), x[k]? = some px → y[k]? = some py →
    ∃ o, val[k]? = some o ∧ ∀ i < comps, get o i = g i px py

theorem u_slice (S : Shape ℝ) (M : Multi ℝ) (p : ℕ) (c : ℕ → ℝ) (P : Panel ℝ) (α : ℕ) :
    u S P 0 (M.slice p c) α = u S P (start M p) c α := by
  funext x y
  unfold u Multi.slice start
  cases M.place p with
  | none => rfl
  | some q => simp only [Option.map_some, Option.getD_some, zero_add, add_assoc]

theorem out_u (S : Shape ℝ) (P : Panel ℝ) (c : ℕ → ℝ) :
    C31.outU S P c = u S P 0 c 0 ∧ C31.outV S P c = u S P 0 c 1 ∧ C31.outW S P c = u S P 0 c 2 := by
  obtain ⟨h1, h2, h3⟩ := C31.out_eq S P c
  rw [h1, h2, h3, phys_zero, phys_zero, phys_zero]
  exact ⟨rfl, rfl, rfl⟩

theorem uvwAt_get (hS : S.C2) (M : Multi ℝ) (p : ℕ) (P : Panel ℝ) (c : ℕ → ℝ) (i : ℕ) (hi : i < 5)
    (x y : ℝ) :
    (uvwAt S P (M.slice p c) x y).get i = displ S P (start M p) c i x y := by
  obtain ⟨h1, h2, h3⟩ := out_u S P (M.slice p c)
  obtain ⟨h4, h5⟩ := C30.rotations hS P (M.slice p c) x y
  simp only [u_slice] at h1 h2 h3
  change _ = - dx (C31.outW S P (M.slice p c)) x y at h4
  change _ = - dy (C31.outW S P (M.slice p c)) x y at h5
  rw [h3] at h4 h5
  match i with
  | 0 => exact congrFun (congrFun h1 x) y
  | 1 => exact congrFun (congrFun h2 x) y
  | 2 => exact congrFun (congrFun h3 x) y
  | 3 => exact h4
  | 4 => exact h5

theorem strainAt_eq (hS : S.C2) (M : Multi ℝ) (p : ℕ) (P : Panel ℝ) (c : ℕ → ℝ) (NL : Bool) (s : ℕ)
    (x y : ℝ) :
    strainAt S P (M.slice p c) NL.toNat s x y = strain S P (start M p) c NL s x y := by
  obtain ⟨h1, h2, h3⟩ := out_u S P (M.slice p c)
  simp only [u_slice] at h1 h2 h3
  cases NL with
  | false =>
    rw [show false.toNat = 0 from rfl, C31.strain_linear hS, h1, h2, h3]
    simp [strain, linStrain]
  | true =>
    rw [show true.toNat = 1 from rfl]
    simp only [strain, if_true, vkStrain]
    by_cases hs : s = 2
    · rw [hs, C31.strain_shear_excess hS, h1, h2, h3]
      simp
    · rw [C31.strain_nonlinear_partial hS _ _ _ hs, h1, h2, h3, if_neg hs, add_zero]

theorem uvw_of (hS : S.C2) {cores : ℕ} (hc : 0 < cores) {p : ℕ} {x y : List ℝ}
    (hl : x.length = y.length) {v : List (UVW ℝ)} (h : uvwOf S M c cores p x y = .ok v) :
    Values UVW.get 5 (displ S (M.shells p).panel (start M p) c) x y v := by
  cases h
  have e : fuvw S (M.shells p).panel (M.slice p c) x y cores
      = List.zipWith (uvwAt S (M.shells p).panel (M.slice p c)) x y := chunked_eq _ cores hc x y hl
  rw [e]
  refine ⟨by simp [hl], fun k px py hx hy => ⟨_, by rw [List.getElem?_zipWith, hx, hy], ?_⟩⟩
  exact fun i hi => uvwAt_get hS M p _ c i hi px py

theorem strain_of (hS : S.C2) {cores : ℕ} (hc : 0 < cores) {NL : Bool} {p : ℕ} {x y : List ℝ}
    (hl : x.length = y.length) {v : List (ℕ → ℝ)} (h : strainOf S M c cores NL.toNat p x y = .ok v) :
    Values id 6 (strain S (M.shells p).panel (start M p) c NL) x y v := by
  unfold strainOf at h
  split at h
  · cases h
  cases h
  have e : fstrain S (M.shells p).panel (M.slice p c) x y cores NL.toNat
      = List.zipWith (fun x y s => strainAt S (M.shells p).panel (M.slice p c) NL.toNat s x y) x y :=
    chunked_eq _ cores hc x y hl
  rw [e]
  refine ⟨by simp [hl], fun k px py hx hy => ⟨_, by rw [List.getElem?_zipWith, hx, hy], ?_⟩⟩
  exact fun i _ => strainAt_eq hS M p _ c NL i px py

theorem stress_of (hS : S.C2) {cores : ℕ} (hc : 0 < cores) {NL : Bool} {p : ℕ} {x y : List ℝ}
    (hl : x.length = y.length) {v : List (ℕ → ℝ)} (h : stressOf S M c cores NL.toNat p x y = .ok v) :
    ∃ F, (M.shells p).ABD = some F ∧
      Values id 6 (stress S (M.shells p).panel (start M p) F c NL) x y v := by
  obtain ⟨e, he, h⟩ := bind_ok.1 h
  obtain ⟨h1, h2⟩ := strain_of hS hc hl he
  split at h
  · cases h
  rename_i F hF
  cases h
  refine ⟨F, hF, by simpa using h1, fun k px py hx hy => ?_⟩
  obtain ⟨o, ho, hv⟩ := h2 k px py hx hy
  refine ⟨stressRow F o, by rw [List.getElem?_map, ho]; rfl, fun i _ => ?_⟩
  rw [id, C32.stressRow_eq]
  exact sum_congr rfl fun t ht => by rw [← hv t (mem_range.1 ht)]; rfl

theorem strain_linear (P : Panel ℝ) (s0 s : ℕ) (x y : ℝ) :
    strain S P s0 c false s x y = linStrain (C31.curv P) S P s0 c s x y := rfl

theorem strain_nonlinear (P : Panel ℝ) (s0 s : ℕ) (hs : s ≠ 2) (x y : ℝ) :
    strain S P s0 c true s x y = vkStrain (C31.curv P) S P s0 c s x y := by
  simp [strain, hs]

/-! ## The components by their names -/

/-- The component of the field with the given name, for the panel `P`. -/
noncomputable def component (S : Shape ℝ) (P : Panel ℝ) (s0 : ℕ) (F : ℕ → ℕ → ℝ) (c : ℕ → ℝ) (NL : Bool)
    (vec : String) (x y : ℝ) : ℝ :=
  let e := fun i => strain S P s0 c NL i x y
  let N := fun i => stress S P s0 F c NL i x y
  match vec with
  | "u" => u S P s0 c 0 x y
  | "v" => u S P s0 c 1 x y
  | "w" => u S P s0 c 2 x y
  | "phix" => - dx (u S P s0 c 2) x y
  | "phiy" => - dy (u S P s0 c 2) x y
  | "exx" => e 0
  | "eyy" => e 1
  | "gxy" => e 2
  | "kxx" => e 3
  | "kyy" => e 4
  | "kxy" => e 5
  | "Nxx" => N 0
  | "Nyy" => N 1
  | "Nxy" => N 2
  | "Mxx" => N 3
  | "Myy" => N 4
  | "Mxy" => N 5
  | _ => 0

theorem displs_lt {vec : String} {i : ℕ} (h : displs.idxOf? vec = some i) : i < 5 := by
  simp only [displs, List.idxOf?, List.findIdx?_cons, beq_iff_eq, List.findIdx?_nil] at h
  split_ifs at h with h0 h1 h2 h3 h4 <;> simp at h <;> subst h <;> norm_num

theorem displs_at {P : Panel ℝ} {s0 : ℕ} {F : ℕ → ℕ → ℝ} {NL : Bool} {x y : ℝ} {vec : String} {i : ℕ}
    (h : displs.idxOf? vec = some i) : displ S P s0 c i x y = component S P s0 F c NL vec x y := by
  simp only [displs, List.idxOf?, List.findIdx?_cons, beq_iff_eq, List.findIdx?_nil] at h
  split_ifs at h with h0 h1 h2 h3 h4 <;> simp at h <;> subst h <;> subst_vars <;> rfl

theorem strains_at {P : Panel ℝ} {s0 : ℕ} {F : ℕ → ℕ → ℝ} {NL : Bool} {x y : ℝ} {vec : String} {i : ℕ}
    (h : strains.idxOf? vec = some i) (hi : i < 6) :
    strain S P s0 c NL i x y = component S P s0 F c NL vec x y := by
  simp only [strains, List.idxOf?, List.findIdx?_cons, beq_iff_eq, List.findIdx?_nil] at h
  split_ifs at h <;> simp at h <;> subst h <;> subst_vars <;>
    first
    | rfl
    | omega

theorem stresses_at {P : Panel ℝ} {s0 : ℕ} {F : ℕ → ℕ → ℝ} {NL : Bool} {x y : ℝ} {vec : String}
    {i : ℕ} (h : stresses.idxOf? vec = some i) (hi : i < 6) :
    stress S P s0 F c NL i x y = component S P s0 F c NL vec x y := by
  simp only [stresses, List.idxOf?, List.findIdx?_cons, beq_iff_eq, List.findIdx?_nil] at h
  split_ifs at h <;> simp at h <;> subst h <;> subst_vars <;>
    first
    | rfl
    | omega

/-! ## The three methods -/

/-- `R` has one part for each panel of the group, in order, on a grid over that panel, with the values
of the fields `g`. -/
def Sampling {α : Type} (M : Multi ℝ) (groupOf : ℕ → String) (group : String) (gridx gridy : ℕ)
    (get : α → ℕ → ℝ) (comps : ℕ) (g : ℕ → ℕ → ℝ → ℝ → ℝ) (R : List (Sampled ℝ (List α))) : Prop :=
  R.map Sampled.panel = M.panels.filter (fun p => groupOf p = group) ∧
  ∀ s ∈ R, Covers (M.shells s.panel).pan.a (M.shells s.panel).pan.b gridx gridy s.x s.y ∧
    Values get comps (g s.panel) s.x s.y s.val

theorem uvw (hS : S.C2) {groupOf : ℕ → String} {group : String} {gridx gridy cores : ℕ}
    (hc : 0 < cores) {R : List (Sampled ℝ (List (UVW ℝ)))}
    (h : M.uvw S groupOf c group gridx gridy cores = .ok R) :
    Sampling M groupOf group gridx gridy UVW.get 5
      (fun p => displ S (M.shells p).panel (start M p) c) R := by
  obtain ⟨h1, h2⟩ := loop_ok h
  refine ⟨h1, fun s hs => ?_⟩
  obtain ⟨g, hv⟩ := h2 s hs
  exact ⟨g, uvw_of hS hc (g.1.trans g.2.1.symm) hv⟩

/-- The displacements are given for every group of panels of known models. -/
theorem uvw_exists (S : Shape ℝ) (M : Multi ℝ) (c : ℕ → ℝ) (groupOf : ℕ → String) (group : String)
    (gridx gridy cores : ℕ)
    (hm : ∀ p ∈ M.panels, groupOf p = group → ∃ k, (M.shells p).model.bind kindOf = some k) :
    ∃ R, M.uvw S groupOf c group gridx gridy cores = .ok R :=
  loop_exists _ _ _ _ _ _ _ fun p hp hg => ⟨hm p hp hg, fun _ _ => ⟨_, rfl⟩⟩

/-- Full claim: `strain` is `Sampling` with `vkStrain`; missing is the shear strain with `NLterms`,
which has the excess written in `strain`. -/
theorem strain_partial (hS : S.C2) {groupOf : ℕ → String} {group : String}
    {gridx gridy cores : ℕ} (hc : 0 < cores) {NL : Bool} {R : List (Sampled ℝ (List (ℕ → ℝ)))}
    (h : M.strain S groupOf c group gridx gridy cores NL = .ok R) :
    Sampling M groupOf group gridx gridy id 6
      (fun p => strain S (M.shells p).panel (start M p) c NL) R := by
  obtain ⟨h1, h2⟩ := loop_ok h
  refine ⟨h1, fun s hs => ?_⟩
  obtain ⟨g, hv⟩ := h2 s hs
  exact ⟨g, strain_of hS hc (g.1.trans g.2.1.symm) hv⟩

theorem strain_exists (S : Shape ℝ) (M : Multi ℝ) (c : ℕ → ℝ) (groupOf : ℕ → String)
    (group : String) (gridx gridy cores : ℕ) (NL : Bool)
    (hm : ∀ p ∈ M.panels, groupOf p = group → (∃ k, (M.shells p).model.bind kindOf = some k) ∧
      ∃ r, (M.shells p).r = some r) :
    ∃ R, M.strain S groupOf c group gridx gridy cores NL = .ok R :=
  loop_exists _ _ _ _ _ _ _ fun p hp hg => ⟨(hm p hp hg).1, fun _ _ => by
    obtain ⟨r, hr⟩ := (hm p hp hg).2
    exact ⟨_, by unfold strainOf; rw [hr]⟩⟩

/-- The matrix of a panel, zero if it has none. -/
noncomputable def abd (M : Multi ℝ) (p : ℕ) : ℕ → ℕ → ℝ := ((M.shells p).ABD).getD fun _ _ => 0

/-- As `strain_partial`, with the matrix of each panel. -/
theorem stress_partial (hS : S.C2) {groupOf : ℕ → String} {group : String}
    {gridx gridy cores : ℕ} (hc : 0 < cores) {NL : Bool} {R : List (Sampled ℝ (List (ℕ → ℝ)))}
    (h : M.stress S groupOf c group gridx gridy cores NL = .ok R) :
    (∀ p ∈ M.panels, groupOf p = group → (M.shells p).ABD ≠ none) ∧
    Sampling M groupOf group gridx gridy id 6
      (fun p => stress S (M.shells p).panel (start M p) (abd M p) c NL) R := by
  obtain ⟨h1, h2⟩ := loop_ok h
  refine ⟨fun p hp hg => ?_, h1, fun s hs => ?_⟩
  · have : p ∈ R.map Sampled.panel := by rw [h1]; exact List.mem_filter.2 ⟨hp, by simpa using hg⟩
    obtain ⟨s, hs, rfl⟩ := List.mem_map.1 this
    obtain ⟨g, hv⟩ := h2 s hs
    obtain ⟨F, hF, -⟩ := stress_of hS hc (g.1.trans g.2.1.symm) hv
    rw [hF]; simp
  · obtain ⟨g, hv⟩ := h2 s hs
    obtain ⟨F, hF, hv⟩ := stress_of hS hc (g.1.trans g.2.1.symm) hv
    have e : abd M s.panel = F := by simp [abd, hF]
    refine ⟨g, ?_⟩
    simpa only [e] using hv

theorem stress_exists (S : Shape ℝ) (M : Multi ℝ) (c : ℕ → ℝ) (groupOf : ℕ → String)
    (group : String) (gridx gridy cores : ℕ) (NL : Bool)
    (hm : ∀ p ∈ M.panels, groupOf p = group → (∃ k, (M.shells p).model.bind kindOf = some k) ∧
      (∃ r, (M.shells p).r = some r) ∧ ∃ F, (M.shells p).ABD = some F) :
    ∃ R, M.stress S groupOf c group gridx gridy cores NL = .ok R :=
  loop_exists _ _ _ _ _ _ _ fun p hp hg => ⟨(hm p hp hg).1, fun _ _ => by
    obtain ⟨-, ⟨r, hr⟩, F, hF⟩ := hm p hp hg
    exact ⟨_, by unfold stressOf strainOf; rw [hr, hF]; rfl⟩⟩

/-- A plate whose radius is still `None` (no matrix computed yet) has no strains: `TypeError` or an
earlier error. -/
theorem strain_fresh (S : Shape ℝ) (M : Multi ℝ) (c : ℕ → ℝ) (groupOf : ℕ → String)
    (group : String) (gridx gridy cores : ℕ) (NL : Bool)
    (hm : ∃ p ∈ M.panels, groupOf p = group ∧ (M.shells p).r = none) :
    ¬ ∃ R, M.strain S groupOf c group gridx gridy cores NL = .ok R := by
  rintro ⟨R, h⟩
  obtain ⟨p, hp, hg, hr⟩ := hm
  obtain ⟨h1, h2⟩ := loop_ok h
  have : p ∈ R.map Sampled.panel := by rw [h1]; exact List.mem_filter.2 ⟨hp, by simpa using hg⟩
  obtain ⟨s, hs, rfl⟩ := List.mem_map.1 this
  have := (h2 s hs).2
  unfold strainOf at this
  rw [hr] at this
  cases this

/-! ## Concrete case -/

/-- Two panels of different sizes, one of them curved, and a third one of another group. -/
noncomputable def wing : Multi ℝ := Multi.init (fun p => { C40.shell with
    pan := if p = 4 then Witness.panel2 else Witness.panel
    r := if p = 4 then some 5 else some 0
    model := some "plate_clpt_donnell_bardell"
    ABD := some fun i j => if i = j then 2 else 0 })
  (fun _ => none) [4, 7, 0] none

/-- Panel 7 is not part of the skin. -/
def groups (p : ℕ) : String := if p = 7 then "flange" else "skin"

theorem wing_kind (p : ℕ) : ∃ k, (wing.shells p).model.bind kindOf = some k := ⟨.plate, rfl⟩

theorem wing_r (p : ℕ) : ∃ r, (wing.shells p).r = some r := by
  by_cases h : p = 4
  · exact ⟨5, if_pos h⟩
  · exact ⟨0, if_neg h⟩

example : ∃ R, wing.stress (bardellShape ℝ) groups (fun k => k) "skin" 50 40 4 true = .ok R ∧
    R.map Sampled.panel = [4, 0] ∧
    Sampling wing groups "skin" 50 40 id 6
      (fun p => stress (bardellShape ℝ) (wing.shells p).panel (start wing p) (abd wing p)
        (fun k => k) true) R := by
  obtain ⟨R, h⟩ := stress_exists (bardellShape ℝ) wing (fun k => k) groups "skin" 50 40 4 true
    fun p _ _ => ⟨wing_kind p, wing_r p, _, rfl⟩
  have := stress_partial bardellShape_C2 (by norm_num) h
  exact ⟨R, h, this.2.1, this.2⟩

example : ∃ R, wing.uvw (bardellShape ℝ) groups (fun k => k) "skin" 50 40 4 = .ok R ∧
    R.map Sampled.panel = [4, 0] := by
  obtain ⟨R, h⟩ := uvw_exists (bardellShape ℝ) wing (fun k => k) groups "skin" 50 40 4
    fun p _ _ => wing_kind p
  exact ⟨R, h, (uvw bardellShape_C2 (by norm_num) h).1⟩

example : ∃ R, wing.strain (bardellShape ℝ) groups (fun k => k) "skin" 50 40 4 true = .ok R ∧
    R.map Sampled.panel = [4, 0] := by
  obtain ⟨R, h⟩ := strain_exists (bardellShape ℝ) wing (fun k => k) groups "skin" 50 40 4 true
    fun p _ _ => ⟨wing_kind p, wing_r p⟩
  exact ⟨R, h, (strain_partial bardellShape_C2 (by norm_num) h).1⟩

example : start wing 4 = 0 ∧ start wing 7 = 72 ∧ start wing 0 = 177 := ⟨rfl, rfl, rfl⟩

example : ∃ p ∈ [4, 0], (fun _ => "skin") p = "skin" ∧ C40.shell.r = none := ⟨4, by simp, rfl, rfl⟩

end Verif.C70

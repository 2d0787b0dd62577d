import Verif.Model.MultiField
import Verif.Props.C29
import Verif.Props.C39

/-!
# C47: grids of the fields at integration points

`Own x`: a panel is sampled along `x` on 50 points over its own length.  The claim is violated: with
neither `x_gauss` nor `y_gauss` the methods raise (`none_given`), and with one of them the missing
grid of every panel of the group is that of the first (`first`), so the claim holds
exactly when all panels of the group have the same length (`own_x_iff`) or width (`own_y_iff`).
-/

set_option linter.unusedSectionVars false

namespace Verif.C47

open Model

variable {K : Type} [Field K] [LinearOrder K] {α : Type}

/-- One part of the result per panel of the group, in order. -/
theorem panels_of (M : Multi K) (groupOf : ℕ → String) (group : String)
    (f : ℕ → List K → List K → Except Fail α) (ps : List ℕ) (xg yg : Option (List K))
    (R : List (Sampled K α)) (h : gaussLoop M groupOf group f ps xg yg = .ok R) :
    R.map Sampled.panel = ps.filter fun p => groupOf p = group := by
  induction ps generalizing xg yg R with
  | nil => cases h; rfl
  | cons p ps ih =>
    unfold gaussLoop at h
    split at h
    · rename_i hg
      rw [ih _ _ _ h, List.filter_cons_of_neg (by simpa using hg)]
    · rename_i hg
      split at h
      · cases h
      split at h
      · cases h
      simp only [bind, Except.bind, pure, Except.pure] at h
      split at h
      · cases h
      split at h
      · cases h
      rename_i v hv _ rest hr
      cases h
      rw [List.map_cons, ih _ _ _ hr, List.filter_cons_of_pos (by simpa using hg)]

/-- Given grids are used for every panel, and every part of the result is what `f` computes there. -/
theorem given (M : Multi K) (groupOf : ℕ → String) (group : String)
    (f : ℕ → List K → List K → Except Fail α) (ps : List ℕ) (x y : List K) (R : List (Sampled K α))
    (h : gaussLoop M groupOf group f ps (some x) (some y) = .ok R) :
    ∀ s ∈ R, s.x = meshX x y ∧ s.y = meshY x y ∧ f s.panel s.x s.y = .ok s.val := by
  induction ps generalizing R with
  | nil => cases h; intro s hs; cases hs
  | cons p ps ih =>
    unfold gaussLoop at h
    split at h
    · exact ih R h
    · split at h
      · cases h
      split at h
      · cases h
      simp only [bind, Except.bind, pure, Except.pure, Option.getD_some] at h
      split at h
      · cases h
      split at h
      · cases h
      rename_i v hv _ rest hr
      cases h
      intro s hs
      rcases List.mem_cons.1 hs with rfl | hs
      · exact ⟨rfl, rfl, hv⟩
      · exact ih rest hr s hs

/-- In general the grids of all panels are those found for the first panel of the group. -/
theorem first (M : Multi K) (groupOf : ℕ → String) (group : String)
    (f : ℕ → List K → List K → Except Fail α) (ps : List ℕ) (xg yg : Option (List K))
    (R : List (Sampled K α)) (h : gaussLoop M groupOf group f ps xg yg = .ok R) :
    ∀ s0, R.head? = some s0 → ∀ s ∈ R,
      s.x = meshX (xg.getD (linspace 0 (M.shells s0.panel).pan.a 50))
        (yg.getD (linspace 0 (M.shells s0.panel).pan.b 50)) ∧
      s.y = meshY (xg.getD (linspace 0 (M.shells s0.panel).pan.a 50))
        (yg.getD (linspace 0 (M.shells s0.panel).pan.b 50)) ∧
      f s.panel s.x s.y = .ok s.val := by
  induction ps generalizing R with
  | nil => cases h; intro s0 h0; cases h0
  | cons p ps ih =>
    unfold gaussLoop at h
    split at h
    · exact ih R h
    · split at h
      · cases h
      split at h
      · cases h
      simp only [bind, Except.bind, pure, Except.pure] at h
      split at h
      · cases h
      split at h
      · cases h
      rename_i v hv _ rest hr
      cases h
      intro s0 h0 s hs
      cases h0
      rcases List.mem_cons.1 hs with rfl | hs
      · exact ⟨rfl, rfl, hv⟩
      · exact given M groupOf group f ps _ _ rest hr s hs

/-- With no points at all the methods raise `ValueError` if the group has a panel (of a known model). -/
theorem none_given (M : Multi K) (groupOf : ℕ → String) (group : String)
    (f : ℕ → List K → List K → Except Fail α) (ps : List ℕ) (hp : ∃ p ∈ ps, groupOf p = group)
    (hm : ∀ p ∈ ps, ∃ k, (M.shells p).model.bind kindOf = some k) :
    gaussLoop M groupOf group f ps none none = .error (.raised .valueError) := by
  induction ps with
  | nil => obtain ⟨p, h, -⟩ := hp; cases h
  | cons p ps ih =>
    unfold gaussLoop
    by_cases hg : groupOf p = group
    · obtain ⟨k, hk⟩ := hm p List.mem_cons_self
      simp [hg, hk]
    · rw [if_pos hg]
      refine ih ?_ fun q hq => hm q (List.mem_cons_of_mem _ hq)
      obtain ⟨q, hq, e⟩ := hp
      rcases List.mem_cons.1 hq with rfl | hq
      · exact absurd e hg
      · exact ⟨q, hq, e⟩

/-- A panel sampled on 50 points over its own length, at the given `y`. -/
def OwnX (M : Multi K) (y : List K) (s : Sampled K α) : Prop :=
  s.x = meshX (linspace 0 (M.shells s.panel).pan.a 50) y

/-- A panel sampled on 50 points over its own width, at the given `x`. -/
def OwnY (M : Multi K) (x : List K) (s : Sampled K α) : Prop :=
  s.y = meshY x (linspace 0 (M.shells s.panel).pan.b 50)

theorem linspace_inj [CharZero K] {a b : K} (h : linspace 0 a 50 = linspace 0 b 50) : a = b := by
  have := congrArg (fun l => l[49]?) h
  simp [linspace] at this
  have h49 : ((50 : K) - 1) ≠ 0 := by norm_num
  field_simp at this
  have h49' : (49 : K) ≠ 0 := by norm_num
  first
    | exact this
    | exact mul_left_cancel₀ h49' this
    | (rcases this with h | h; exacts [h, absurd h h49'])

theorem meshX_inj {x x' y : List K} (hy : y ≠ []) (hl : x.length = x'.length)
    (h : meshX x y = meshX x' y) : x = x' := by
  cases y with
  | nil => exact absurd rfl hy
  | cons a y =>
    simp only [meshX, List.flatMap_cons] at h
    exact (List.append_inj h hl).1

theorem meshY_inj {x y y' : List K} (hx : x ≠ []) (hl : y.length = y'.length)
    (h : meshY x y = meshY x y') : y = y' := by
  induction y generalizing y' with
  | nil => cases y' with
    | nil => rfl
    | cons => simp at hl
  | cons a y ih =>
    cases y' with
    | nil => simp at hl
    | cons b y' =>
      simp only [meshY, List.flatMap_cons] at h
      obtain ⟨h1, h2⟩ := List.append_inj h (by simp)
      simp only [List.length_cons, Nat.add_right_cancel_iff] at hl
      rw [ih hl h2]
      cases x with
      | nil => exact absurd rfl hx
      | cons c x =>
        simp only [List.map_cons, List.cons.injEq] at h1
        rw [h1.1]

/-- Without `x_gauss`: every panel is sampled over its own length if and only if all panels of the
group are equally long. -/
theorem own_x_iff [CharZero K] (M : Multi K) (groupOf : ℕ → String) (group : String)
    (f : ℕ → List K → List K → Except Fail α) (ps : List ℕ) (y : List K) (hy : y ≠ [])
    (R : List (Sampled K α)) (h : gaussLoop M groupOf group f ps none (some y) = .ok R) :
    (∀ s ∈ R, OwnX M y s) ↔ ∀ p ∈ ps, ∀ q ∈ ps, groupOf p = group → groupOf q = group →
      (M.shells p).pan.a = (M.shells q).pan.a := by
  have hp := panels_of M groupOf group f ps _ _ R h
  cases hR : R with
  | nil =>
    rw [hR] at hp
    refine ⟨fun _ p hpm q _ hg _ => ?_, fun _ s hs => by cases hs⟩
    have : p ∈ ps.filter fun p => groupOf p = group := List.mem_filter.2 ⟨hpm, by simpa using hg⟩
    rw [← hp] at this
    cases this
  | cons s0 R' =>
    have hf := first M groupOf group f ps _ _ R h s0 (by rw [hR]; rfl)
    rw [← hR]
    constructor
    · intro ho
      have key : ∀ p ∈ ps, groupOf p = group → (M.shells p).pan.a = (M.shells s0.panel).pan.a := by
        intro p hpm hg
        have : p ∈ R.map Sampled.panel := by
          rw [hp]; exact List.mem_filter.2 ⟨hpm, by simpa using hg⟩
        obtain ⟨s, hs, rfl⟩ := List.mem_map.1 this
        have e1 := (hf s hs).1
        have e2 := ho s hs
        rw [OwnX, e1] at e2
        exact (linspace_inj (meshX_inj hy (by simp [linspace]) e2)).symm
      intro p hpm q hqm hg hg'
      rw [key p hpm hg, key q hqm hg']
    · intro he s hs
      have mem : ∀ s ∈ R, s.panel ∈ ps ∧ groupOf s.panel = group := by
        intro s hs
        have : s.panel ∈ R.map Sampled.panel := List.mem_map_of_mem hs
        rw [hp, List.mem_filter] at this
        exact ⟨this.1, by simpa using this.2⟩
      have h0 := mem s0 (by rw [hR]; exact List.mem_cons_self)
      have h1 := mem s hs
      rw [OwnX, (hf s hs).1, he _ h1.1 _ h0.1 h1.2 h0.2]
      rfl

/-- Without `y_gauss`: every panel is sampled over its own width if and only if all panels of the
group are equally wide. -/
theorem own_y_iff [CharZero K] (M : Multi K) (groupOf : ℕ → String) (group : String)
    (f : ℕ → List K → List K → Except Fail α) (ps : List ℕ) (x : List K) (hx : x ≠ [])
    (R : List (Sampled K α)) (h : gaussLoop M groupOf group f ps (some x) none = .ok R) :
    (∀ s ∈ R, OwnY M x s) ↔ ∀ p ∈ ps, ∀ q ∈ ps, groupOf p = group → groupOf q = group →
      (M.shells p).pan.b = (M.shells q).pan.b := by
  have hp := panels_of M groupOf group f ps _ _ R h
  cases hR : R with
  | nil =>
    rw [hR] at hp
    refine ⟨fun _ p hpm q _ hg _ => ?_, fun _ s hs => by cases hs⟩
    have : p ∈ ps.filter fun p => groupOf p = group := List.mem_filter.2 ⟨hpm, by simpa using hg⟩
    rw [← hp] at this
    cases this
  | cons s0 R' =>
    have hf := first M groupOf group f ps _ _ R h s0 (by rw [hR]; rfl)
    rw [← hR]
    constructor
    · intro ho
      have key : ∀ p ∈ ps, groupOf p = group → (M.shells p).pan.b = (M.shells s0.panel).pan.b := by
        intro p hpm hg
        have : p ∈ R.map Sampled.panel := by
          rw [hp]; exact List.mem_filter.2 ⟨hpm, by simpa using hg⟩
        obtain ⟨s, hs, rfl⟩ := List.mem_map.1 this
        have e1 := (hf s hs).2.1
        have e2 := ho s hs
        rw [OwnY, e1] at e2
        exact (linspace_inj (meshY_inj hx (by simp [linspace]) e2)).symm
      intro p hpm q hqm hg hg'
      rw [key p hpm hg, key q hqm hg']
    · intro he s hs
      have mem : ∀ s ∈ R, s.panel ∈ ps ∧ groupOf s.panel = group := by
        intro s hs
        have : s.panel ∈ R.map Sampled.panel := List.mem_map_of_mem hs
        rw [hp, List.mem_filter] at this
        exact ⟨this.1, by simpa using this.2⟩
      have h0 := mem s0 (by rw [hR]; exact List.mem_cons_self)
      have h1 := mem s hs
      rw [OwnY, (hf s hs).2.1, he _ h1.1 _ h0.1 h1.2 h0.2]
      rfl

theorem mesh_length (x y : List K) : (meshX x y).length = (meshY x y).length := by
  simp [meshX, meshY, List.length_flatMap]

/-- `uvw_gauss_points` on panels of one length and one width (the condition under which the grids are
right): the `k`-th value of each panel is the displacement of the panel at its `k`-th point, computed
from the panel's own block of `c`. -/
theorem uvw_values (S : Shape K) (M : Multi K) (groupOf : ℕ → String) (c : ℕ → K) (group : String)
    (xg yg : Option (List K)) (cores : ℕ) (hc : 0 < cores) (R : List (Sampled K (List (UVW K))))
    (h : M.uvwGauss S groupOf c group xg yg cores = .ok R) (s : Sampled K (List (UVW K))) (hs : s ∈ R)
    (q : Place) (hq : M.place s.panel = some q) :
    s.val.length = s.x.length ∧ s.y.length = s.x.length ∧
    ∀ k (hk : k < s.x.length) (hk' : k < s.y.length), ∃ o, s.val[k]? = some o ∧
      let P := (M.shells s.panel).panel
      let ξ := 2 * s.x[k] / P.a - 1
      let η := 2 * s.y[k] / P.b - 1
      o.u = Spec.disp S P q.col0 c 0 0 0 ξ η ∧ o.v = Spec.disp S P q.col0 c 1 0 0 ξ η ∧
      o.w = Spec.disp S P q.col0 c 2 0 0 ξ η ∧ o.phix = - Spec.disp S P q.col0 c 2 1 0 ξ η ∧
      o.phiy = - Spec.disp S P q.col0 c 2 0 1 ξ η := by
  obtain ⟨s0, h0⟩ : ∃ s0, R.head? = some s0 := by
    cases R with
    | nil => cases hs
    | cons a _ => exact ⟨a, rfl⟩
  obtain ⟨e1, e2, e3⟩ := first M groupOf group _ M.panels xg yg R h s0 h0 s hs
  have hl : s.x.length = s.y.length := by rw [e1, e2, mesh_length]
  simp only [Except.ok.injEq] at e3
  obtain ⟨h1, h2⟩ := C29.uvw_points S (M.shells s.panel).panel (M.slice s.panel c) s.x s.y hl cores hc
  rw [e3] at h1 h2
  have shift : ∀ α p p' ξ η, Spec.disp S (M.shells s.panel).panel 0 (M.slice s.panel c) α p p' ξ η
      = Spec.disp S (M.shells s.panel).panel q.col0 c α p p' ξ η := by
    intro α p p' ξ η
    simp only [Spec.disp, Multi.slice, hq, zero_add]
    first
      | done
      | simp only [add_assoc]
  refine ⟨h1, hl.symm, fun k hk hk' => ?_⟩
  obtain ⟨o, g1, g2⟩ := h2 k hk
  simp only [shift] at g2
  exact ⟨o, g1, g2⟩

/-! ## Concrete cases -/

/-- A panel of width 1 and a panel of width 2. -/
def two : Multi ℚ := Multi.init (fun p => { C54.shell with
  pan := if p = 0 then Witness.panel else Witness.panel2
  model := some "plate_clpt_donnell_bardell" }) (fun _ => none) [0, 1] none

/-- The claim is violated by two panels of different widths in one group. -/
theorem claim_violated : ∃ R, two.uvwGauss (C54.env.S) (fun _ => "skin") (fun k => k) "skin"
      (some [0, 1, 3]) none 4 = .ok R ∧ R.map Sampled.panel = [0, 1] ∧
    ¬ ∀ s ∈ R, OwnY two [0, 1, 3] s := by
  obtain ⟨R, hR⟩ : ∃ R, two.uvwGauss (C54.env.S) (fun _ => "skin") (fun k => k) "skin"
      (some [0, 1, 3]) none 4 = .ok R := ⟨_, rfl⟩
  refine ⟨R, hR, panels_of two _ _ _ _ _ _ R hR, fun h => ?_⟩
  rw [own_y_iff two _ _ _ _ [0, 1, 3] (by simp) R hR] at h
  have := h 0 (show 0 ∈ [0, 1] by simp) 1 (show 1 ∈ [0, 1] by simp) rfl rfl
  revert this
  decide +kernel

example : two.place 1 = some ⟨105, 105, 177, 177⟩ ∧ 0 < 4 := ⟨rfl, by norm_num⟩

end Verif.C47

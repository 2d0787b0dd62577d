import Verif.Props.C27
import Verif.Props.C21
import Verif.Props.C38
import Verif.Proofs.ShellSlice
import Verif.Proofs.ConnLoop

/-!
# C28: sub-domains and the integration paths

The claim is false: without a state, a laminate field or non-linearity `calc_kC`, `calc_kG` and
`calc_kM` use the closed-form integrals over the whole panel and ignore `x1, x2, y1, y2`
(`kC_ignores`, `kG_ignores`, `kM_ignores`), so the parts of a panel add up to twice the panel
(`claim_violated`).  The numerical path honours the sub-domain (`kC_partial`, `kM_partial`).
-/

set_option linter.unusedSectionVars false

namespace Verif.C28

open Spec Model

section
variable {K : Type} [Field K] [DecidableEq K]

/-- The shell with its sub-domain set. -/
def onPart (s : Shell K) (x1 x2 y1 y2 : K) : Shell K :=
  { s with pan := { s.pan with x1 := x1, x2 := x2, y1 := y1, y2 := y2 } }

/-- Result of a call, with the sub-domain set in the shell left behind. -/
def withPart (x1 x2 y1 y2 : K) (r : Coo K × Shell K) : Coo K × Shell K :=
  (r.1, onPart r.2 x1 x2 y1 y2)

set_option linter.overlappingInstances false in
theorem map_ite {α β ε : Type} (f : α → β) (e : ε) (p : Prop) [d1 : Decidable p] [d2 : Decidable p]
    {x : Except ε β} {y : Except ε α} (h : x = y.map f) :
    @ite _ p d1 (.error e) x = (@ite _ p d2 (.error e) y).map f := by
  by_cases hp : p
  · rw [if_pos hp, if_pos hp]; rfl
  · rw [if_neg hp, if_neg hp]; exact h

theorem rebuild_part (E : Env K) (s : Shell K) (x1 x2 y1 y2 : K) :
    (onPart s x1 x2 y1 y2).rebuild E = (s.rebuild E).map fun t => onPart t x1 x2 y1 y2 := by
  unfold Shell.rebuild
  refine map_ite _ _ _ (map_ite _ _ _ (map_ite _ _ _ (map_ite _ _ _ ?_)))
  dsimp only [onPart]
  cases E.mkLam s.stack (orFill s.plyts (s.plyt.getD 0) s.stack)
    (orFill s.laminaprops s.laminaprop s.stack) (orFill s.rhos s.rho s.stack) s.offset <;> rfl

theorem fk0_part (E : Env K) (k : Kind) (s : Shell K) (F : ℕ → ℕ → K) (row0 col0 : ℕ)
    (x1 x2 y1 y2 : K) :
    fk0 E k (onPart s x1 x2 y1 y2).panel F row0 col0 = fk0 E k s.panel F row0 col0 := by
  cases k <;> rfl

theorem fkG0_part (E : Env K) (k : Kind) (s : Shell K) (N1 N2 N3 : K) (row0 col0 : ℕ)
    (x1 x2 y1 y2 : K) :
    fkG0 E k (onPart s x1 x2 y1 y2).panel N1 N2 N3 row0 col0 = fkG0 E k s.panel N1 N2 N3 row0 col0 := by
  cases k <;> rfl

theorem fixR_part (s : Shell K) (x1 x2 y1 y2 : K) :
    (onPart s x1 x2 y1 y2).fixR = onPart s.fixR x1 x2 y1 y2 := rfl

theorem fkM_part (E : Env K) (k : Kind) (s : Shell K) (d h rho : K) (row0 col0 : ℕ)
    (x1 x2 y1 y2 : K) :
    fkM E k (onPart s x1 x2 y1 y2).panel d h rho row0 col0 = fkM E k s.panel d h rho row0 col0 := by
  cases k <;> rfl

/-- Arguments of a call on the closed-form path. -/
def closed (size : SizeArg) (row0 col0 : ℕ) (fz : Bool) (nx ny : Option ℕ) : KArgs K :=
  { size := size, row0 := row0, col0 := col0, finalize := fz, nx := nx, ny := ny }

theorem kCpart_closed (E : Env K) (s : Shell K) (N : ℕ) (size : SizeArg) (row0 col0 : ℕ) (fz : Bool)
    (nx ny : Option ℕ) : s.kCpart E N (closed size row0 col0 fz nx ny)
      = s.built.bind fun x => toSparse N (fk0 E x.1 s.panel x.2.1.ABD row0 col0) := by
  unfold Shell.kCpart
  cases s.built <;> rfl

theorem kGcte_closed (E : Env K) (s : Shell K) (N : ℕ) (size : SizeArg) (row0 col0 : ℕ) (fz : Bool)
    (nx ny : Option ℕ) : s.kGcte E N (closed size row0 col0 fz nx ny)
      = if s.anyCte then s.built.bind fun x =>
          toSparse N (fkG0 E x.1 s.panel s.NxxCte s.NyyCte s.NxyCte row0 col0)
        else .ok [] := by
  unfold Shell.kGcte
  cases s.anyCte
  · rfl
  · cases s.built <;> rfl

theorem built_part (s : Shell K) (x1 x2 y1 y2 : K) : (onPart s x1 x2 y1 y2).built = s.built := rfl

/-- The closed-form stiffness ignores the sub-domain. -/
theorem kC_ignores (E : Env K) (s : Shell K) (size : SizeArg) (row0 col0 : ℕ) (fz : Bool)
    (nx ny : Option ℕ) (x1 x2 y1 y2 : K) :
    (onPart s x1 x2 y1 y2).calcKC E (closed size row0 col0 fz nx ny)
      = (s.calcKC E (closed size row0 col0 fz nx ny)).map (withPart x1 x2 y1 y2) := by
  unfold Shell.calcKC
  rw [rebuild_part]
  cases s.rebuild E with
  | error e => rfl
  | ok t =>
    have h1 : ∀ N, (onPart t x1 x2 y1 y2).fixR.kCpart E N (closed size row0 col0 fz nx ny)
        = t.fixR.kCpart E N (closed size row0 col0 fz nx ny) := fun N => by
      rw [kCpart_closed, kCpart_closed, fixR_part, built_part]
      simp only [fk0_part]
    have h2 : ∀ N, (onPart t x1 x2 y1 y2).fixR.kGcte E N (closed size row0 col0 fz nx ny)
        = t.fixR.kGcte E N (closed size row0 col0 fz nx ny) := fun N => by
      rw [kGcte_closed, kGcte_closed, fixR_part, built_part]
      simp only [fkG0_part]
      rfl
    simp only [Except.map, bind, Except.bind, show (closed size row0 col0 fz nx ny : KArgs K).c = none
      from rfl, checkOpt, h1, h2, show (onPart t x1 x2 y1 y2).pan.m = t.pan.m from rfl,
      show (onPart t x1 x2 y1 y2).pan.n = t.pan.n from rfl]
    generalize t.fixR.kCpart E _ (closed size row0 col0 fz nx ny) = x
    generalize t.fixR.kGcte E _ (closed size row0 col0 fz nx ny) = y
    cases x with
    | error e => rfl
    | ok L => cases y <;> rfl

/-- So does the closed-form geometric stiffness. -/
theorem kG_ignores (E : Env K) (s : Shell K) (size : SizeArg) (row0 col0 : ℕ) (fz : Bool)
    (nx ny : Option ℕ) (x1 x2 y1 y2 : K) :
    (onPart s x1 x2 y1 y2).calcKG E (closed size row0 col0 fz nx ny)
      = (s.calcKG E (closed size row0 col0 fz nx ny)).map (withPart x1 x2 y1 y2) := by
  unfold Shell.calcKG
  rw [rebuild_part]
  cases s.rebuild E with
  | error e => rfl
  | ok t =>
    simp only [Except.map, bind, Except.bind, show (closed size row0 col0 fz nx ny : KArgs K).c = none
      from rfl, show (closed size row0 col0 fz nx ny : KArgs K).NLgeom = false from rfl,
      checkOpt, fixR_part, built_part, fkG0_part, Option.isNone_none, Bool.not_false, Bool.and_self,
      if_true, show (onPart t x1 x2 y1 y2).pan.m = t.pan.m from rfl,
      show (onPart t x1 x2 y1 y2).pan.n = t.pan.n from rfl,
      show (onPart t.fixR x1 x2 y1 y2).Nxx = t.fixR.Nxx from rfl,
      show (onPart t.fixR x1 x2 y1 y2).Nyy = t.fixR.Nyy from rfl,
      show (onPart t.fixR x1 x2 y1 y2).Nxy = t.fixR.Nxy from rfl]
    cases t.fixR.built with
    | error e => rfl
    | ok x =>
      obtain ⟨k, lam, F⟩ := x
      simp only
      generalize toSparse _ (fkG0 E k t.fixR.panel t.fixR.Nxx t.fixR.Nyy t.fixR.Nxy _ _) = y
      cases y <;> rfl

theorem kM_closed (E : Env K) (s : Shell K) (size : SizeArg) (row0 col0 : ℕ) (nx ny : Option ℕ)
    (fz : Bool) : s.calcKM E size row0 col0 none none nx ny fz
      = (match s.model.bind kindOf with
        | none => .error .keyError
        | some k => match s.lam with
          | none => .error (.raised .attributeError)
          | some _ => (toSparse (size.value (3 * s.pan.m * s.pan.n))
              (fkM E k s.fixR.panel s.offset s.plyts.sum s.rho row0 col0)).map
                fun L => (fin fz L, s.fixR)) := by
  unfold Shell.calcKM
  cases s.model.bind kindOf with
  | none => rfl
  | some k =>
    have h : s.fixR.lam = s.lam := rfl
    simp only [bind, Except.bind, h]
    cases s.lam with
    | none => rfl
    | some lam =>
      have e : ∀ x : Except Fail (Coo K), (x.bind fun v => pure (fin fz v, s.fixR))
          = x.map fun L => (fin fz L, s.fixR) := fun x => by cases x <;> rfl
      cases k
      · exact e (toSparse _ (plateFkM E.I s.fixR.panel s.offset s.plyts.sum s.rho row0 col0))
      · exact e (toSparse _ (cylFkM E.I s.fixR.panel s.offset s.plyts.sum s.rho row0 col0))

/-- And the closed-form mass matrix. -/
theorem kM_ignores (E : Env K) (s : Shell K) (size : SizeArg) (row0 col0 : ℕ) (nx ny : Option ℕ)
    (fz : Bool) (x1 x2 y1 y2 : K) :
    (onPart s x1 x2 y1 y2).calcKM E size row0 col0 none none nx ny fz
      = (s.calcKM E size row0 col0 none none nx ny fz).map (withPart x1 x2 y1 y2) := by
  rw [kM_closed, kM_closed, show (onPart s x1 x2 y1 y2).model = s.model from rfl,
    show (onPart s x1 x2 y1 y2).lam = s.lam from rfl]
  cases s.model.bind kindOf with
  | none => rfl
  | some k =>
    cases s.lam with
    | none => rfl
    | some lam =>
      simp only [fixR_part, fkM_part, show (onPart s x1 x2 y1 y2).pan.m = s.pan.m from rfl,
        show (onPart s x1 x2 y1 y2).pan.n = s.pan.n from rfl,
        show (onPart s x1 x2 y1 y2).offset = s.offset from rfl,
        show (onPart s x1 x2 y1 y2).plyts = s.plyts from rfl,
        show (onPart s x1 x2 y1 y2).rho = s.rho from rfl]
      generalize toSparse _ _ = y
      cases y <;> rfl

/-- Split a panel at `x = t`: on the default path each part gives the matrix of the whole panel. -/
theorem parts_double (E : Env K) (s u : Shell K) (L : Coo K) (h : s.calcKC E {} = .ok (L, u)) (t : K) :
    (∃ u1, (onPart s 0 t s.pan.y1 s.pan.y2).calcKC E {} = .ok (L, u1)) ∧
    (∃ u2, (onPart s t s.pan.a s.pan.y1 s.pan.y2).calcKC E {} = .ok (L, u2)) := by
  have h1 := kC_ignores E s .none 0 0 true none none 0 t s.pan.y1 s.pan.y2
  have h2 := kC_ignores E s .none 0 0 true none none t s.pan.a s.pan.y1 s.pan.y2
  simp only [closed, h, Except.map, withPart] at h1 h2
  exact ⟨⟨_, h1⟩, ⟨_, h2⟩⟩
end

/-! ## The numerical path -/

/-- Is the model a cylinder? -/
def isCyl : Kind → Bool
  | .plate => false
  | .cyl => true

/-- Density of the initial-stress form: membrane forces `N0 + [A B] ε(c)` on the slopes of `v`. -/
noncomputable def energyG (κ : ℝ) (S : Shape ℝ) (P : Panel ℝ) (F : ℕ → ℕ → ℝ) (N0 N1 N2 : ℝ) (s0 : ℕ)
    (c v : ℕ → ℝ) (x y : ℝ) : ℝ :=
  let e := fun s => lin κ S P s0 c s x y
  stressDens S P s0 v (N0 + resultant F e 0) (N1 + resultant F e 1) (N2 + resultant F e 2) x y

theorem energyG_x {S : Shape ℝ} {P : Panel ℝ} {d : ℕ} (hS : C27.ShapePoly S P.m d) (κ : ℝ)
    (F : ℕ → ℕ → ℝ) (N0 N1 N2 : ℝ) (s0 : ℕ) (c v : ℕ → ℝ) (y : ℝ) :
    C27.IsPoly (3 * d) fun x => energyG κ S P F N0 N1 N2 s0 c v x y := by
  have W := fun p q => C27.disp_x hS s0 v 2 p q (2 / P.b * y - 1)
  have N : ∀ (n : ℝ) r, C27.IsPoly d fun x => n + resultant F (fun s => lin κ S P s0 c s x y) r :=
    fun n r => (C27.IsPoly.const d n).add (C27.IsPoly.sum _ fun t _ => (C27.lin_x hS κ s0 c t y).smul _)
  have e : 3 * d = d + 2 * d := by ring
  have e' : 3 * d = d + (d + d) := by ring
  unfold energyG stressDens
  refine C27.IsPoly.add (C27.IsPoly.add ?_ ?_) ?_
  · rw [e]; exact (N N0 0).mul (W 1 0).sq
  · rw [e']; exact ((N N2 2).smul 2).mul ((W 1 0).mul (W 0 1))
  · rw [e]; exact (N N1 1).mul (W 0 1).sq

theorem energyG_y {S : Shape ℝ} {P : Panel ℝ} {d : ℕ} (hS : C27.ShapePoly S P.n d) (κ : ℝ)
    (F : ℕ → ℕ → ℝ) (N0 N1 N2 : ℝ) (s0 : ℕ) (c v : ℕ → ℝ) (x : ℝ) :
    C27.IsPoly (3 * d) fun y => energyG κ S P F N0 N1 N2 s0 c v x y := by
  have W := fun p q => C27.disp_y hS s0 v 2 p q (2 / P.a * x - 1)
  have N : ∀ (n : ℝ) r, C27.IsPoly d fun y => n + resultant F (fun s => lin κ S P s0 c s x y) r :=
    fun n r => (C27.IsPoly.const d n).add (C27.IsPoly.sum _ fun t _ => (C27.lin_y hS κ s0 c t x).smul _)
  have e : 3 * d = d + 2 * d := by ring
  have e' : 3 * d = d + (d + d) := by ring
  unfold energyG stressDens
  refine C27.IsPoly.add (C27.IsPoly.add ?_ ?_) ?_
  · rw [e]; exact (N N0 0).mul (W 1 0).sq
  · rw [e']; exact ((N N2 2).smul 2).mul ((W 1 0).mul (W 0 1))
  · rw [e]; exact (N N1 1).mul (W 0 1).sq

/-- Quadrature over a sub-domain. -/
theorem gaussP_part {G : GaussTab ℝ} {P : Panel ℝ} {nx ny d e : ℕ} (hx : C27.Exact G nx d)
    (hy : C27.Exact G ny e) {g : ℝ → ℝ → ℝ} (gx : ∀ y, C27.IsPoly d fun x => g x y)
    (gy : ∀ x, C27.IsPoly e fun y => g x y) {x1 x2 y1 y2 : ℝ} (h1 : x1 ≠ -1)
    (h2 : x2 ≠ -1) (h3 : y1 ≠ -1) (h4 : y2 ≠ -1) :
    gaussP G nx ny (C27.onPart P x1 x2 y1 y2) (fun _ _ => g) = ∫ y in y1..y2, ∫ x in x1..x2, g x y := by
  rw [gaussP, show xdom (C27.onPart P x1 x2 y1 y2) = (x1, x2) from if_pos ⟨h1, h2⟩,
    show ydom (C27.onPart P x1 x2 y1 y2) = (y1, y2) from if_pos ⟨h3, h4⟩]
  exact C27.gauss_integral hx hy gx gy x1 x2 y1 y2

theorem fkCnumF_integral (E : Env ℝ) (k : Kind) {P : Panel ℝ} {nx ny d e : ℕ}
    (hx : C27.Exact E.G nx (2 * d)) (hy : C27.Exact E.G ny (2 * e)) (hm : C27.ShapePoly E.S P.m d)
    (hn : C27.ShapePoly E.S P.n e) (ha : P.a ≠ 0) (hb : P.b ≠ 0) (hr : isCyl k = true → P.r ≠ 0)
    (F : ℕ → ℕ → ℝ) (hF : ABDSym F) (s0 : ℕ) (cs c : ℕ → ℝ) {x1 x2 y1 y2 : ℝ} (h1 : x1 ≠ -1)
    (h2 : x2 ≠ -1) (h3 : y1 ≠ -1) (h4 : y2 ≠ -1) :
    Coo.quad (Coo.finalizeSym (fkCnumF E k (C27.onPart P x1 x2 y1 y2) (fun _ _ => F) cs s0 s0 nx ny 0)) c
      = ∫ y in y1..y2, ∫ x in x1..x2, C27.energyC (C27.curv (isCyl k) P) E.S P F s0 c x y := by
  rw [← gaussP_part (P := P) hx hy (fun y => C27.energyC_x hm _ F s0 c y)
    (fun x => C27.energyC_y hn _ F s0 c x) h1 h2 h3 h4]
  cases k with
  | plate =>
    refine (plateFkCnum_quad E.S E.G (C27.onPart P x1 x2 y1 y2) ha hb (fun _ _ => F) (fun _ _ => hF) cs c
      s0 nx ny 0).trans ?_
    simp only [zero_ne_one, if_false]
    rfl
  | cyl =>
    refine (cylFkCnum_quad E.S E.G (C27.onPart P x1 x2 y1 y2) ha hb (hr rfl) (fun _ _ => F)
      (fun _ _ => hF) cs c s0 nx ny 0).trans ?_
    simp only [zero_ne_one, if_false]
    rfl

theorem fkGnumF_integral (E : Env ℝ) (k : Kind) {P : Panel ℝ} {nx ny d e : ℕ}
    (hx : C27.Exact E.G nx (3 * d)) (hy : C27.Exact E.G ny (3 * e)) (hm : C27.ShapePoly E.S P.m d)
    (hn : C27.ShapePoly E.S P.n e) (ha : P.a ≠ 0) (hb : P.b ≠ 0)
    (F : ℕ → ℕ → ℝ) (hF : ABDSym F) (N0 N1 N2 : ℝ) (s0 : ℕ) (cs c : ℕ → ℝ) {x1 x2 y1 y2 : ℝ}
    (h1 : x1 ≠ -1) (h2 : x2 ≠ -1) (h3 : y1 ≠ -1) (h4 : y2 ≠ -1) :
    Coo.quad (Coo.finalizeSym (fkGnumF E k (C27.onPart P x1 x2 y1 y2) (fun _ _ => F) cs s0 s0 nx ny 0
        N0 N1 N2)) c
      = ∫ y in y1..y2, ∫ x in x1..x2,
          energyG (C27.curv (isCyl k) P) E.S P F N0 N1 N2 s0 cs c x y := by
  rw [← gaussP_part (P := P) hx hy (fun y => energyG_x hm _ F N0 N1 N2 s0 cs c y)
    (fun x => energyG_y hn _ F N0 N1 N2 s0 cs c x) h1 h2 h3 h4]
  cases k with
  | plate =>
    refine (plateFkGnum_quad E.S E.G (C27.onPart P x1 x2 y1 y2) ha hb (fun _ _ => F) (fun _ _ => hF) cs c
      s0 nx ny 0 N0 N1 N2).trans ?_
    simp only [zero_ne_one, if_false]
    rfl
  | cyl =>
    refine (cylFkGnum_quad E.S E.G (C27.onPart P x1 x2 y1 y2) ha hb (fun _ _ => F) (fun _ _ => hF) cs c
      s0 nx ny 0 N0 N1 N2).trans ?_
    simp only [zero_ne_one, if_false]
    rfl

/-- What the numerical path needs: polynomial shape functions, and rules exact for the products of
`w` of them. -/
structure Num (E : Env ℝ) (s t : Shell ℝ) (w : ℕ) : Prop where
  rebuild : s.rebuild E = .ok t
  a : s.pan.a ≠ 0
  b : s.pan.b ≠ 0
  r : ∀ k, t.model.bind kindOf = some k → isCyl k = true → s.r.getD 0 ≠ 0
  poly : ∃ d e, C27.ShapePoly E.S s.pan.m d ∧ C27.ShapePoly E.S s.pan.n e ∧
    C27.Exact E.G t.nx (w * d) ∧ C27.Exact E.G t.ny (w * e)

/-- With a state `calc_kC` integrates numerically and its matrix is that of the sub-domain. -/
theorem kC_partial (E : Env ℝ) (s t : Shell ℝ) (h : Num E s t 2) (hF : ∀ F, t.ABD = some F → ABDSym F)
    (hN : ¬ C38.PreStress t) (c : ℕ → ℝ) {x1 x2 y1 y2 : ℝ} (h1 : x1 ≠ -1) (h2 : x2 ≠ -1)
    (h3 : y1 ≠ -1) (h4 : y2 ≠ -1) :
    ∃ k F L u, t.model.bind kindOf = some k ∧ t.ABD = some F ∧
      (onPart s x1 x2 y1 y2).calcKC E { c := some (.vec (3 * s.pan.m * s.pan.n) c) } = .ok (L, u) ∧
      ∀ v, Coo.quad L v = ∫ y in y1..y2, ∫ x in x1..x2,
        C27.energyC (C27.curv (isCyl k) s.panel) E.S s.panel F 0 v x y := by
  obtain ⟨d, e, hm, hn, hx, hy⟩ := h.poly
  have ht : (onPart s x1 x2 y1 y2).rebuild E = .ok (onPart t x1 x2 y1 y2) := by
    rw [rebuild_part, h.rebuild]; rfl
  obtain ⟨hp, hr, hpan, -⟩ := rebuild_kept E h.rebuild
  obtain ⟨k, lam, F, hk, hl, hABD, h5⟩ := C38.outcome_partial E _ _
    { c := some (.vec (3 * s.pan.m * s.pan.n) c) } ht
    ⟨fun x hx => by
        cases hx
        refine ⟨c, ?_⟩
        show _ = CArg.vec (3 * t.pan.m * t.pan.n) c
        rw [hp],
      by simp, by simp, by simp [C38.sizeOf], by simp [C38.sizeOf]⟩ (by simp) (by simp)
  refine ⟨k, F, _, _, hk, hABD, h5, fun v => ?_⟩
  have hG : C38.wantG E k (onPart t x1 x2 y1 y2).fixR F
      { c := some (.vec (3 * s.pan.m * s.pan.n) c) } t.nx t.ny = [] := if_pos ⟨rfl, hN⟩
  have hC : C38.wantC E k (onPart t x1 x2 y1 y2).fixR.panel lam.ABD F
      { c := some (.vec (3 * s.pan.m * s.pan.n) c) } t.nx t.ny
      = fkCnumF E k (C27.onPart s.panel x1 x2 y1 y2) (fun _ _ => F) (fun _ => 0) 0 0 t.nx t.ny 0 := by
    rw [← hpan]
    exact if_neg (by simp)
  have e1 := fkCnumF_integral E k (P := s.panel) hx hy hm hn h.a h.b (h.r k hk) F (hF F hABD) 0
    (fun _ => 0) v h1 h2 h3 h4
  rw [← e1, ← hC]
  show Coo.quad (Coo.finalizeSym (_ ++ _)) v = _
  rw [Coo.finalizeSym_append_quad]
  refine (congrArg₂ (· + ·) rfl (congrArg (fun L => Coo.quad (Coo.finalizeSym L) v) hG)).trans ?_
  exact add_zero _

/-- The same for the geometric stiffness. -/
theorem kG_partial (E : Env ℝ) (s t : Shell ℝ) (h : Num E s t 3)
    (hF : ∀ l, t.lam = some l → ABDSym (lamABD t.forceOrtho l.ABD)) (c : ℕ → ℝ) {x1 x2 y1 y2 : ℝ}
    (h1 : x1 ≠ -1) (h2 : x2 ≠ -1) (h3 : y1 ≠ -1) (h4 : y2 ≠ -1) :
    ∃ k lam L u, t.model.bind kindOf = some k ∧ t.lam = some lam ∧
      (onPart s x1 x2 y1 y2).calcKG E { c := some (.vec (3 * s.pan.m * s.pan.n) c) } = .ok (L, u) ∧
      ∀ v, Coo.quad L v = ∫ y in y1..y2, ∫ x in x1..x2,
        energyG (C27.curv (isCyl k) s.panel) E.S s.panel (lamABD s.forceOrtho lam.ABD) s.Nxx s.Nyy s.Nxy
          0 c v x y := by
  obtain ⟨d, e, hm, hn, hx, hy⟩ := h.poly
  have ht : (onPart s x1 x2 y1 y2).rebuild E = .ok (onPart t x1 x2 y1 y2) := by
    rw [rebuild_part, h.rebuild]; rfl
  obtain ⟨hp, hr, hpan, -⟩ := rebuild_kept E h.rebuild
  obtain ⟨k, lam, F, hb, hk, hl, hABD⟩ := rebuild_built E s t h.rebuild
  have hN : t.forceOrtho = s.forceOrtho ∧ t.Nxx = s.Nxx ∧ t.Nyy = s.Nyy ∧ t.Nxy = s.Nxy := by
    obtain ⟨-, -, -, -, l, -, rfl⟩ := (C54.rebuild_ok_iff E s t).1 h.rebuild
    exact ⟨rfl, rfl, rfl, rfl⟩
  have hS : InSize (C27.onPart s.panel x1 x2 y1 y2) 0 0 (3 * s.pan.m * s.pan.n) :=
    ⟨le_of_eq (zero_add _), le_of_eq (zero_add _)⟩
  have hpm : (onPart t x1 x2 y1 y2).pan.m = s.pan.m := by show t.pan.m = _; rw [hp]
  have hpn : (onPart t x1 x2 y1 y2).pan.n = s.pan.n := by show t.pan.n = _; rw [hp]
  have r1 : readable (CArg.vec (3 * s.pan.m * s.pan.n) c) 0 (C27.onPart s.panel x1 x2 y1 y2) = .ok c :=
    if_pos hS.2
  have e1 : (onPart t x1 x2 y1 y2).fixR.panel = C27.onPart s.panel x1 x2 y1 y2 := by
    rw [← hpan]; rfl
  refine ⟨k, lam, Coo.finalizeSym (fkGnumF E k (C27.onPart s.panel x1 x2 y1 y2)
    (fun _ _ => lamABD t.forceOrtho lam.ABD) c 0 0 t.nx t.ny 0 t.Nxx t.Nyy t.Nxy),
    (onPart t x1 x2 y1 y2).fixR, hk, hl, ?_, fun v => ?_⟩
  · unfold Shell.calcKG
    simp only [ht, bind, Except.bind, checkOpt, checkC, fixR_part, built_part,
      show t.fixR.built = .ok (k, lam, F) from hb, SizeArg.value,
      hpm, hpn,
      ne_eq, not_true_eq_false, if_false, Option.isNone_some, Bool.false_and, Bool.false_eq_true,
      Option.getD_some, show (onPart t.fixR x1 x2 y1 y2).panel = _ from e1, r1, fkGnum_eq, lamAt,
      Option.getD_none, Except.map, lift, fkGnumF_sparse E k _ _ _ _ _ _ _ _ _ hS]
    rfl
  · have := fkGnumF_integral E k (P := s.panel) hx hy hm hn h.a h.b (lamABD t.forceOrtho lam.ABD)
      (hF lam hl) t.Nxx t.Nyy t.Nxy 0 c v h1 h2 h3 h4
    rw [this, hN.1, hN.2.1, hN.2.2.1, hN.2.2.2]

/-- The same for the mass matrix when a field of thickness is given. -/
theorem kM_partial (E : Env ℝ) (s : Shell ℝ) {k : Kind} {lam : LamObj ℝ} (hk : s.model.bind kindOf = some k)
    (hl : s.lam = some lam) {d e : ℕ} (hm : C27.ShapePoly E.S s.pan.m d)
    (hn : C27.ShapePoly E.S s.pan.n e) (hx : C27.Exact E.G s.nx (2 * d))
    (hy : C27.Exact E.G s.ny (2 * e)) (ha : s.pan.a ≠ 0) (hb : s.pan.b ≠ 0) (h : ℝ) {x1 x2 y1 y2 : ℝ}
    (h1 : x1 ≠ -1) (h2 : x2 ≠ -1) (h3 : y1 ≠ -1) (h4 : y2 ≠ -1) :
    ∃ L u, (onPart s x1 x2 y1 y2).calcKM E .none 0 0 (some ⟨s.nx, s.ny, fun _ _ => h⟩) none none none true
        = .ok (L, u) ∧
      ∀ v, Coo.quad L v = ∫ y in y1..y2, ∫ x in x1..x2,
        C27.energyM E.S s.panel s.offset h (lam.intrho / lam.h) 0 v x y := by
  have hS : InSize (C27.onPart s.panel x1 x2 y1 y2) 0 0 (3 * s.pan.m * s.pan.n) :=
    ⟨le_of_eq (zero_add _), le_of_eq (zero_add _)⟩
  refine ⟨Coo.finalizeSym (fkMnumF E.S E.G (C27.onPart s.panel x1 x2 y1 y2) s.offset (fun _ _ => h)
    (fun _ _ => lam.intrho / lam.h) 0 0 s.nx s.ny), (onPart s x1 x2 y1 y2).fixR, ?_, fun v => ?_⟩
  · have hs : toSparse (3 * s.pan.m * s.pan.n) (fkMnumF E.S E.G (C27.onPart s.panel x1 x2 y1 y2) s.offset
        (fun _ _ => h) (fun _ _ => lam.intrho / lam.h) 0 0 s.nx s.ny) = .ok _ :=
      toSparse_fits _ (C24.fkMnumF_fits ..) hS pos_fdim
    unfold Shell.calcKM
    simp only [bind, Except.bind, show (onPart s x1 x2 y1 y2).model = s.model from rfl, hk,
      show (onPart s x1 x2 y1 y2).fixR.lam = s.lam from rfl, hl, Option.isNone_some, Bool.false_and,
      Bool.false_eq_true, if_false, Option.getD_none, Option.getD_some, ne_eq,
      show (onPart s x1 x2 y1 y2).nx = s.nx from rfl, show (onPart s x1 x2 y1 y2).ny = s.ny from rfl,
      not_true_eq_false, or_self, fkMnum, and_self, if_true, lift, SizeArg.value]
    refine Eq.trans ?_ (congrArg (fun x : Except Fail (Coo ℝ) => x.bind fun L =>
      Except.ok (fin true L, (onPart s x1 x2 y1 y2).fixR)) hs)
    rfl
  · exact C27.kM_integral (P := s.panel) hx hy hm hn ha hb s.offset h (lam.intrho / lam.h) 0 v x1 x2 y1 y2
      h1 h2 h3 h4

/-! ## Witnesses -/

/-- The exact Bardell functions and their integrals. -/
noncomputable def env : Env ℝ where
  S := bardellShape ℝ
  I := Tab.of (bardellShape ℝ) Mean.integral
  G := ⟨fun _ _ => 0, fun _ _ => 0⟩
  mkLam := fun _ plyts _ rhos _ =>
    .ok ⟨fun i j => if i = j then plyts.sum else 0, plyts.sum, (List.zipWith (· * ·) plyts rhos).sum⟩
  shared := true

/-- A flat panel with one term per direction and two plies. -/
noncomputable def shell : Shell ℝ where
  pan := C21.plate1
  r := none
  model := none
  nx := 3
  ny := 3
  stack := [0, 90]
  plyt := some (1 / 2)
  plyts := []
  laminaprop := [142]
  laminaprops := []
  rho := 3
  rhos := []
  offset := 0
  lam := none
  ABD := none
  forceOrtho := false
  size := none
  Nxx := 0
  Nyy := 0
  Nxy := 0
  NxxCte := 0
  NyyCte := 0
  NxyCte := 0
  flow := "x"
  beta := none
  gamma := none
  rhoAir := none
  Mach := none
  V := none

theorem fpfp0 : (Tab.of (bardellShape ℝ) Mean.integral).fpfp 0 0 ⟨1, 0, 0, 0⟩ ⟨1, 0, 0, 0⟩ = 3 / 5 := by
  simp only [Tab.of, Mean.integral, C21.fp0]
  have e : ∀ x : ℝ, (- 3 / 4 + 3 / 4 * x ^ 2) * (- 3 / 4 + 3 / 4 * x ^ 2)
      = 9 / 16 + (- 9 / 8) * x ^ 2 + 9 / 16 * x ^ 4 := fun x => by ring
  simp only [e]
  rw [intervalIntegral.integral_add, intervalIntegral.integral_add]
  · simp only [intervalIntegral.integral_const, intervalIntegral.integral_const_mul,
      integral_pow, smul_eq_mul]
    norm_num
  all_goals apply Continuous.intervalIntegrable; fun_prop

/-- Membrane displacement `u` only. -/
def c0 (k : ℕ) : ℝ := if k = 0 then 1 else 0

theorem shell_kC : ∃ L u, shell.calcKC env {} = .ok (L, u) ∧ Coo.quad L c0 = 156 / 175 := by
  obtain ⟨t, lam, ht, hr, hl, hF, hp, hN⟩ : ∃ t lam, shell.rebuild env = .ok t ∧
      t.model.bind kindOf = some .plate ∧ t.lam = some lam ∧
      (∀ i j, lam.ABD i j = if i = j then 1 else 0) ∧
      t.fixR.panel = { C21.plate1 with r := 0 } ∧ ¬ C38.PreStress t := by
    refine ⟨_, _, rfl, rfl, rfl, fun i j => ?_, rfl, ?_⟩
    · simp [shell, env, orFill, lamABD]; norm_num
    · simp [C38.PreStress, shell]
  obtain ⟨k, lam', F, hk, hl', -, h⟩ := C38.outcome_partial env shell t {} ht
    ⟨by simp, by simp, by simp, by simp [C38.sizeOf], by simp [C38.sizeOf]⟩ (by simp) (by simp)
  rw [hr] at hk
  cases hk
  rw [hl] at hl'
  cases hl'
  refine ⟨_, _, h, ?_⟩
  have hC : C38.wantC env .plate t.fixR.panel lam.ABD F {} t.nx t.ny
      = plateFk0 env.I { C21.plate1 with r := 0 } lam.ABD 0 0 := by rw [← hp]; exact if_pos (by simp)
  have hG : C38.wantG env .plate t.fixR F {} t.nx t.ny = [] := if_pos ⟨rfl, hN⟩
  simp only [Option.getD_none, hC, hG, List.append_nil, fin, if_true]
  rw [plateFk0, Coo.quad_finalizeSym_pad, Coo.quad_finalizeSym]
  simp [symBuild, symBlock, dof, C21.plate1, Gen.PlateAna.fk0_pat, Coo.symW, Gen.PlateAna.fk0, c0, env,
    Gen.PlateAna.fk0_00, C21.ff0, fpfp0, Lam.ofABD, hF]
  norm_num

/-- The stiffness matrices of the two halves of a panel do not add up to that of the panel. -/
theorem claim_violated : ∃ (s : Shell ℝ) (t : ℝ) (L1 L2 L : Coo ℝ) (u1 u2 u : Shell ℝ) (v : ℕ → ℝ),
    0 < t ∧ t < s.pan.a ∧ s.calcKC env {} = .ok (L, u) ∧
    (onPart s 0 t s.pan.y1 s.pan.y2).calcKC env {} = .ok (L1, u1) ∧
    (onPart s t s.pan.a s.pan.y1 s.pan.y2).calcKC env {} = .ok (L2, u2) ∧
    Coo.quad L1 v + Coo.quad L2 v ≠ Coo.quad L v := by
  obtain ⟨L, u, h, hq⟩ := shell_kC
  obtain ⟨⟨u1, h1⟩, ⟨u2, h2⟩⟩ := parts_double env shell u L h 1
  refine ⟨shell, 1, L, L, L, u1, u2, u, c0, one_pos, ?_, h, h1, h2, ?_⟩
  · simp [shell, C21.plate1]
  · rw [hq]; norm_num

/-- The same panel with linear shape functions and Simpson's rule. -/
noncomputable def envN : Env ℝ := { env with S := C27.linear, G := C27.simpson }

theorem simpson_exact3 : C27.Exact C27.simpson 3 3 := by
  intro k hk
  rw [C27.integral_power]
  interval_cases k <;> norm_num [C27.simpson, Finset.sum_range_succ]

theorem sym_diag {h : ℝ} : ABDSym fun i j => if i = j then h else 0 where
  symm s t := by simp only [eq_comm]
  b12 := rfl
  b16 := rfl
  b26 := rfl

example : ∃ t, Num envN shell t 2 ∧ Num envN shell t 3 ∧ (∀ F, t.ABD = some F → ABDSym F) ∧
    ¬ C38.PreStress t := by
  refine ⟨_, ⟨rfl, ?_, ?_, ?_, 1, 1, C27.linear_poly _, C27.linear_poly _, C27.simpson_exact,
    C27.simpson_exact⟩, ⟨rfl, ?_, ?_, ?_, 1, 1, C27.linear_poly _, C27.linear_poly _, simpson_exact3,
    simpson_exact3⟩, ?_, ?_⟩
  · simp [shell, C21.plate1]
  · simp [shell, C21.plate1]
  · intro k hk h
    cases (show some Kind.plate = some k from hk)
    cases h
  · simp [shell, C21.plate1]
  · simp [shell, C21.plate1]
  · intro k hk h
    cases (show some Kind.plate = some k from hk)
    cases h
  · intro F hF
    cases hF
    exact sym_diag
  · simp [C38.PreStress, shell]

end Verif.C28

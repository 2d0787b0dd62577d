import Verif.Basic.Exc
import Verif.Props.C15
import Verif.Props.C16
import Verif.Props.C38
import Verif.Props.C40Conn

/-!
# C15, C16 and C38: the methods `calc_kT` and `calc_fint` of a panel

The theorems of C15 and C16 are about the compiled builders; here about the methods that call them,
with all their arguments.
-/

set_option linter.unusedSectionVars false

namespace Verif.C16

open Model Spec

section
variable {K : Type} [Field K] [DecidableEq K]

theorem putZero_foldl (l : List (ℕ × ℕ)) (F : ℕ → ℕ → K) (i j : ℕ) :
    l.foldl putZero F i j = if (i, j) ∈ l then 0 else F i j := by
  induction l generalizing F with
  | nil => simp
  | cons p l ih =>
    rw [List.foldl_cons, ih]
    by_cases h1 : (i, j) ∈ l <;> by_cases h2 : (i, j) = p <;> simp [putZero, h1, h2]

theorem lamABD_twice (a b : Bool) (h : b = true → a = true) (F : ℕ → ℕ → K) :
    lamABD a (lamABD b F) = lamABD a F := by
  cases b with
  | false => rfl
  | true =>
    rw [h rfl]
    funext i j
    simp only [lamABD, if_true, putZero_foldl]
    split_ifs <;> rfl

/-- `calc_kT` of a panel without a constant pre-stress: the matrices of `fkC_num` and `fkG_num` at the
state, both with the non-linear kinematics, with the same laminate, the same points and the same place
in the matrix. -/
theorem calcKT_eq (E : Env K) (s t : Shell K) (A : KArgs K) (ht : s.rebuild E = .ok t)
    (hd : C38.Documented t { A with cCte := none } (A.nx.getD t.nx) (A.ny.getD t.ny))
    (h1 : A.c = none → A.ABDnxny = none) (h2 : ¬ C38.PreStress t) :
    ∃ k F, t.model.bind kindOf = some k ∧ t.ABD = some F ∧
      s.calcKT E A = .ok
        (fin A.finalize (fkCnumF E k t.fixR.panel (C38.lamField F A.ABDnxny) (C38.coef A.c) A.row0
            A.col0 (A.nx.getD t.nx) (A.ny.getD t.ny) 1)
          ++ fin A.finalize (fkGnumF E k t.fixR.panel (C38.lamField F A.ABDnxny) (C38.coef A.c)
            A.row0 A.col0 (A.nx.getD t.nx) (A.ny.getD t.ny) 1 t.Nxx t.Nyy t.Nxy), t.fixR) := by
  have hd' : C38.Documented t { A with cCte := none, NLgeom := true } (A.nx.getD t.nx)
      (A.ny.getD t.ny) := ⟨hd.c, hd.cCte, hd.abd, hd.row, hd.col⟩
  obtain ⟨k, lam, F, hk, hl, hF, e⟩ := C38.outcome_partial E s t
    { A with cCte := none, NLgeom := true } ht hd' (fun _ => h1) (fun _ h => absurd h h2)
  refine ⟨k, F, hk, hF, ?_⟩
  have h3 : t.fixR.rebuild E = .ok t.fixR := by
    obtain ⟨⟨k', hk'⟩, q1, q2, q3, lam', q4, rfl⟩ := (C54.rebuild_ok_iff E s t).1 ht
    rw [C54.rebuild_ok_iff]
    refine ⟨⟨k', by simpa [Shell.fixR] using hk'⟩, q1, ?_, ?_, lam', ?_, ?_⟩
    · exact Or.inl (C54.orFill_ne_nil _ _ q1)
    · exact Or.inl (C54.orFill_ne_nil _ _ q1)
    · simp only [Shell.fixR, C54.orFill_of_ne (C54.orFill_ne_nil _ _ q1)]
      exact q4
    · simp only [Shell.fixR, C54.orFill_of_ne (C54.orFill_ne_nil _ _ q1), Option.getD_some]
      simp
  have hA : lamABD t.forceOrtho lam.ABD = F := by
    obtain ⟨-, -, -, -, lam', -, rfl⟩ := (C54.rebuild_ok_iff E s t).1 ht
    cases hl
    cases hF
    exact lamABD_twice _ _ (by simp +contextual) _
  obtain ⟨k', lam2, F2, hbt, hk2, hl2, hF2⟩ := rebuild_built E s t ht
  rw [hk] at hk2; cases hk2
  rw [hl] at hl2; cases hl2
  rw [hF] at hF2; cases hF2
  have i2 : InSize t.fixR.panel A.row0 A.col0 (C38.sizeOf (3 * t.pan.m * t.pan.n) A.size) :=
    ⟨hd.row, hd.col⟩
  have hbt' : t.fixR.fixR.built = .ok (k, lam, F) := by
    rw [show t.fixR.fixR = t.fixR from by simp [Shell.fixR]]; exact hbt
  have hr : readable (A.c.getD (.vec (C38.sizeOf (3 * t.pan.m * t.pan.n) A.size) fun _ => 0)) A.col0
      t.fixR.panel = .ok (C38.coef A.c) := by
    cases hc : A.c with
    | none => exact if_pos hd.col
    | some x =>
      obtain ⟨f, rfl⟩ := hd.c x hc
      exact if_pos hd.col
  have eG : t.fixR.calcKG E { A with cCte := none, NLgeom := true }
      = .ok (fin A.finalize (fkGnumF E k t.fixR.panel (C38.lamField F A.ABDnxny) (C38.coef A.c)
            A.row0 A.col0 (A.nx.getD t.nx) (A.ny.getD t.ny) 1 t.Nxx t.Nyy t.Nxy), t.fixR) := by
    unfold Shell.calcKG
    have hff : t.fixR.fixR = t.fixR := by simp [Shell.fixR]
    have hs : A.size.value (3 * t.fixR.pan.m * t.fixR.pan.n)
        = C38.sizeOf (3 * t.pan.m * t.pan.n) A.size := C38.size_eq t A
    have hl' := C38.lamAt_doc F A.ABDnxny hd.abd
    have hfo : lamABD t.fixR.forceOrtho lam.ABD = F := hA
    simp only [h3, bind, Except.bind, hs, C38.check_doc A.c hd.c, hff, hbt, Bool.not_true,
      Bool.and_false, Bool.false_eq_true, if_false, hr, hfo, fkGnum_eq, if_true]
    simp only [show t.fixR.nx = t.nx from rfl, show t.fixR.ny = t.ny from rfl, hl', Except.map, lift]
    rw [fkGnumF_sparse E k _ _ _ _ _ _ _ _ _ i2]
    rfl
  have wC : C38.wantC E k t.fixR.panel lam.ABD F { A with cCte := none, NLgeom := true }
      (A.nx.getD t.nx) (A.ny.getD t.ny)
      = fkCnumF E k t.fixR.panel (C38.lamField F A.ABDnxny) (C38.coef A.c) A.row0
            A.col0 (A.nx.getD t.nx) (A.ny.getD t.ny) 1 := by
    unfold C38.wantC
    simp
  have wG : C38.wantG E k t.fixR F { A with cCte := none, NLgeom := true }
      (A.nx.getD t.nx) (A.ny.getD t.ny) = [] := by
    unfold C38.wantG
    exact if_pos ⟨rfl, h2⟩
  unfold Shell.calcKT
  simp only [e, bind, Except.bind, eG, wC, wG, List.append_nil]
  rfl

/-- A panel with a constant pre-stress has no tangent: `calc_kT` does not pass `c_cte` on, and the
builder reads the missing state. -/
theorem calcKT_prestress (E : Env K) (s t : Shell K) (A : KArgs K) (ht : s.rebuild E = .ok t)
    (hp : C38.PreStress t) : ∃ e, s.calcKT E A = .error e := by
  obtain ⟨e, he⟩ := C38.cte_state_missing E s t { A with cCte := none, NLgeom := true } ht rfl hp rfl
  refine ⟨e, ?_⟩
  unfold Shell.calcKT
  simp only [he, bind, Except.bind]

/-- `calc_fint` of either model for a laminate known at each point. -/
def fintF (E : Env K) (k : Kind) (P : Panel K) (F : ℕ → ℕ → ℕ → ℕ → K) (cs : ℕ → K)
    (col0 nx ny : ℕ) : VecW K :=
  match k with
  | .plate => plateFintF E.S E.G P F cs col0 nx ny
  | .cyl => cylFintF E.S E.G P F cs col0 nx ny

/-- `calc_fint` of a panel whose laminate is known. -/
theorem calcFint_eq (E : Env K) (s : Shell K) {k : Kind} (hk : s.model.bind kindOf = some k)
    {F : ℕ → ℕ → K} (hF : s.ABD = some F) (size : SizeArg) (col0 : ℕ) (nx ny : Option ℕ)
    (abd : Option (LamInput K)) (habd : ∀ x, abd = some x → ∃ f, x = .field (nx.getD s.nx)
      (ny.getD s.ny) f) (hcol : col0 + 3 * s.pan.m * s.pan.n
      ≤ C38.sizeOf (3 * s.pan.m * s.pan.n) size) (c : ℕ → K) :
    s.calcFint E (.vec (C38.sizeOf (3 * s.pan.m * s.pan.n) size) c) size col0 nx ny abd
      = .ok (fintF E k s.fixR.panel (C38.lamField F abd) c col0 (nx.getD s.nx) (ny.getD s.ny),
          s.fixR) := by
  have hs : size.value (3 * s.pan.m * s.pan.n) = C38.sizeOf (3 * s.pan.m * s.pan.n) size := by
    cases size <;> rfl
  have hl := C38.lamAt_doc F abd habd
  have hr : readable (CArg.vec (C38.sizeOf (3 * s.pan.m * s.pan.n) size) c) col0 s.fixR.panel = .ok c :=
    if_pos hcol
  unfold Shell.calcFint
  simp only [hk, bind, Except.bind, hs, hr, show s.fixR.ABD = some F from hF,
    show s.fixR.nx = s.nx from rfl, show s.fixR.ny = s.ny from rfl,
    show s.fixR.pan = s.pan from rfl]
  cases k <;> simp only [plateFint, cylFint, hl, Except.map, lift, fintF, if_pos hcol] <;> rfl

end

/-- The initial-stress form of the prescribed loads between two deflections:
`Nxx w,x v,x + Nyy w,y v,y + Nxy (w,x v,y + w,y v,x)`. -/
noncomputable def loadForm (S : Shape ℝ) (P : Panel ℝ) (s0 : ℕ) (N1 N2 N3 : ℝ) (d e : ℕ → ℝ)
    (x y : ℝ) : ℝ :=
  N1 * (dx (u S P s0 d 2) x y * dx (u S P s0 e 2) x y)
    + N2 * (dy (u S P s0 d 2) x y * dy (u S P s0 e 2) x y)
    + N3 * (dx (u S P s0 d 2) x y * dy (u S P s0 e 2) x y
      + dy (u S P s0 d 2) x y * dx (u S P s0 e 2) x y)

/-- The prescribed loads add their own form to the geometric stiffness. -/
theorem fkGnum_loads {E : Env ℝ} (hS : E.S.C2) (k : Kind) (P : Panel ℝ) (ha : P.a ≠ 0) (hb : P.b ≠ 0)
    (F : ℕ → ℕ → ℕ → ℕ → ℝ) (hF : ∀ p q, ABDSym (F p q)) (c d e : ℕ → ℝ) (s0 nx ny : ℕ)
    (N1 N2 N3 : ℝ) :
    Coo.bilin (Coo.finalizeSym (fkGnumF E k P F c s0 s0 nx ny 1 N1 N2 N3)) d e
      = Coo.bilin (Coo.finalizeSym (fkGnumF E k P F c s0 s0 nx ny 1 0 0 0)) d e
        + gaussP E.G nx ny P fun _ _ x y => loadForm E.S P s0 N1 N2 N3 d e x y := by
  have hc : ∀ A B C : ℝ, A + B + C - A - B = C := fun A B C => by ring
  apply mul_left_cancel₀ (two_ne_zero (α := ℝ))
  rw [mul_add, Coo.two_bilin_finalizeSym, Coo.two_bilin_finalizeSym]
  cases k
  · simp only [fkGnumF, plateFkGnum_quad E.S E.G P ha hb F hF, stressDens_add, gaussP_add, hc]
    rw [← gaussP_smul, ← gaussP_add]
    refine gaussP_congr fun p _ q _ x y => ?_
    simp only [loadForm, vkSec, u_dx hS, u_dy hS]
    ring
  · simp only [fkGnumF, cylFkGnum_quad E.S E.G P ha hb F hF, stressDens_add, gaussP_add, hc]
    rw [← gaussP_smul, ← gaussP_add]
    refine gaussP_congr fun p _ q _ x y => ?_
    simp only [loadForm, vkSec, u_dx hS, u_dy hS]
    ring

/-- Curvature of the panel in the strains of its model. -/
noncomputable def curv (k : Kind) (P : Panel ℝ) : ℝ :=
  match k with
  | .plate => 0
  | .cyl => 1 / P.r

/-- A call of `calc_kT` whose arguments have the documented shapes, on a panel that can be rebuilt. -/
structure Call (E : Env ℝ) (s t : Shell ℝ) (A : KArgs ℝ) (c : ℕ → ℝ) : Prop where
  built : s.rebuild E = .ok t
  smooth : E.S.C2
  sides : s.pan.a ≠ 0 ∧ s.pan.b ≠ 0
  curved : t.model.bind kindOf = some .cyl → t.r.getD 0 ≠ 0
  free : ¬ C38.PreStress t
  place : A.row0 = A.col0 ∧
    A.col0 + 3 * t.pan.m * t.pan.n ≤ C38.sizeOf (3 * t.pan.m * t.pan.n) A.size
  state : A.c = some (.vec (C38.sizeOf (3 * t.pan.m * t.pan.n) A.size) c)
  whole : A.finalize = true
  field : ∀ x, A.ABDnxny = some x → ∃ f, x = .field (A.nx.getD t.nx) (A.ny.getD t.ny) f
  sym : ∀ F, t.ABD = some F → ∀ p q, ABDSym (C38.lamField F A.ABDnxny p q)

/-- `calc_kT` and `calc_fint` of one panel, for every state and all directions: `calc_kT` succeeds, and
so does `calc_fint` at every state of the same length; the tangent is the derivative of the internal
force, less the stress of the superfluous shear strain of C15, plus the form of the prescribed loads
`Nxx, Nyy, Nxy`, which are not part of the internal force. -/
theorem shell_tangent {E : Env ℝ} {s t : Shell ℝ} {A : KArgs ℝ} {c : ℕ → ℝ} (h : Call E s t A c) :
    ∃ (k : Kind) (F : ℕ → ℕ → ℝ) (kT : Coo ℝ) (w : Shell ℝ) (f : (ℕ → ℝ) → VecW ℝ),
      t.model.bind kindOf = some k ∧ t.ABD = some F ∧ s.calcKT E A = .ok (kT, w) ∧
      (∀ e, w.calcFint E (.vec (C38.sizeOf (3 * t.pan.m * t.pan.n) A.size) e) A.size A.col0 A.nx A.ny
        A.ABDnxny = .ok (f e, w)) ∧
      ∀ d e, Coo.bilin kT d e
        + (gaussP E.G (A.nx.getD t.nx) (A.ny.getD t.ny) t.panel fun p q x y =>
            slopes' E.S t.panel A.col0 c e x y * resultant (C38.lamField F A.ABDnxny p q)
              (fun s => dirDeriv (fun e => vkStrain (curv k t.panel) E.S t.panel A.col0 e s x y) c d) 2)
        = dirDeriv (fun c => vdot (f c) d) c e
          + gaussP E.G (A.nx.getD t.nx) (A.ny.getD t.ny) t.panel fun _ _ x y =>
            loadForm E.S t.panel A.col0 t.Nxx t.Nyy t.Nxy d e x y := by
  have hp : t.fixR.panel = t.panel := rfl
  have hab : t.panel.a ≠ 0 ∧ t.panel.b ≠ 0 := by
    obtain ⟨-, -, -, -, lam, -, rfl⟩ := (C54.rebuild_ok_iff E s t).1 h.built
    exact h.sides
  obtain ⟨k, F, hk, hF, e⟩ := calcKT_eq E s t A h.built
    ⟨fun x hx => ⟨c, by rw [h.state] at hx; exact (Option.some.inj hx).symm⟩, by simp, h.field,
      by rw [h.place.1]; exact h.place.2, h.place.2⟩ (by rw [h.state]; simp) h.free
  have hsym := h.sym F hF
  refine ⟨k, F, _, _, fun c => fintF E k t.panel (C38.lamField F A.ABDnxny) c A.col0
    (A.nx.getD t.nx) (A.ny.getD t.ny), hk, hF, e, fun c' => ?_, fun d d' => ?_⟩
  · exact calcFint_eq E t.fixR hk hF A.size A.col0 A.nx A.ny A.ABDnxny h.field h.place.2 c'
  · have key := kT_defect h.smooth E.G t.panel hab.1 hab.2 (C38.lamField F A.ABDnxny) hsym c d d'
      A.col0 (A.nx.getD t.nx) (A.ny.getD t.ny)
    have hc : C38.coef A.c = c := by rw [h.state]; rfl
    rw [Coo.bilin_append, h.whole, hc, h.place.1, hp]
    simp only [fin, if_true]
    rw [fkGnum_loads h.smooth k _ hab.1 hab.2 _ hsym]
    cases k with
    | plate =>
      have := key.1
      rw [plateKT, Coo.bilin_append] at this
      simp only [fintF, fkCnumF, fkGnumF, curv]
      rw [this]
      ring
    | cyl =>
      have := key.2 (h.curved hk)
      rw [cylKT, Coo.bilin_append] at this
      simp only [fintF, fkCnumF, fkGnumF, curv]
      rw [this]
      ring

/-- Full claim: `calc_kT(c)` applied to `e` is the derivative of `calc_fint` at `c` along `e`.  Proved
part, for the methods: panels without prescribed loads, states without deflection slopes, all
directions.  Missing part: false for the builders, see `kT_jacobian_violated`. -/
theorem shell_jacobian_partial {E : Env ℝ} {s t : Shell ℝ} {A : KArgs ℝ} {c : ℕ → ℝ}
    (h : Call E s t A c) (hN : t.Nxx = 0 ∧ t.Nyy = 0 ∧ t.Nxy = 0)
    (hc : ∀ x y, dx (u E.S t.panel A.col0 c 2) x y = 0 ∧ dy (u E.S t.panel A.col0 c 2) x y = 0) :
    ∃ (kT : Coo ℝ) (w : Shell ℝ) (f : (ℕ → ℝ) → VecW ℝ), s.calcKT E A = .ok (kT, w) ∧
      (∀ e, w.calcFint E (.vec (C38.sizeOf (3 * t.pan.m * t.pan.n) A.size) e) A.size A.col0 A.nx A.ny
        A.ABDnxny = .ok (f e, w)) ∧ ∀ d e, Jacobian kT f c d e := by
  obtain ⟨k, F, kT, w, f, -, -, h1, h2, h3⟩ := shell_tangent h
  refine ⟨kT, w, f, h1, h2, fun d e => ?_⟩
  have h4 := h3 d e
  have z : ∀ g : ℕ → ℕ → ℝ → ℝ → ℝ, (gaussP E.G (A.nx.getD t.nx) (A.ny.getD t.ny) t.panel
      fun p q x y => slopes' E.S t.panel A.col0 c e x y * g p q x y) = 0 := by
    intro g
    simp [slopes', hc, gaussP, gauss]
  have z2 : (gaussP E.G (A.nx.getD t.nx) (A.ny.getD t.ny) t.panel fun _ _ x y =>
            loadForm E.S t.panel A.col0 t.Nxx t.Nyy t.Nxy d e x y) = 0 := by
    simp [loadForm, hN, gaussP, gauss]
  rw [z, z2, add_zero, add_zero] at h4
  exact h4

/-- The internal force of the method, for every state and every direction: the gradient of the strain
energy plus the work of the superfluous shear strain. -/
theorem shell_fint {E : Env ℝ} {s t : Shell ℝ} {A : KArgs ℝ} {c : ℕ → ℝ} (h : Call E s t A c) :
    ∃ k F f, t.model.bind kindOf = some k ∧ t.ABD = some F ∧
      t.calcFint E (.vec (C38.sizeOf (3 * t.pan.m * t.pan.n) A.size) c) A.size A.col0 A.nx A.ny
        A.ABDnxny = .ok (f, t.fixR) ∧
      ∀ d, vdot f d = dirDeriv (energy (curv k t.panel) E.S E.G (A.nx.getD t.nx) (A.ny.getD t.ny)
            t.panel A.col0 (C38.lamField F A.ABDnxny)) c d
          + gaussP E.G (A.nx.getD t.nx) (A.ny.getD t.ny) t.panel fun p q x y =>
            dx (u E.S t.panel A.col0 c 2) x y * dy (u E.S t.panel A.col0 c 2) x y *
              resultant (C38.lamField F A.ABDnxny p q)
                (fun s => dirDeriv (fun e => vkStrain (curv k t.panel) E.S t.panel A.col0 e s x y) c d)
                2 := by
  have hab : t.panel.a ≠ 0 ∧ t.panel.b ≠ 0 := by
    obtain ⟨-, -, -, -, lam, -, rfl⟩ := (C54.rebuild_ok_iff E s t).1 h.built
    exact h.sides
  obtain ⟨k, lam, F, -, hk, -, hF⟩ := rebuild_built E s t h.built
  refine ⟨k, F, _, hk, hF,
    calcFint_eq E t hk hF A.size A.col0 A.nx A.ny A.ABDnxny h.field h.place.2 c, fun d => ?_⟩
  have key := C15.fint_defect h.smooth E.G t.panel hab.1 hab.2 (C38.lamField F A.ABDnxny)
    (h.sym F hF) c d A.col0 (A.nx.getD t.nx) (A.ny.getD t.ny)
  cases k with
  | plate => exact key.1
  | cyl => exact key.2 (h.curved hk)

/-- The environment of C40 with the tabulated quadrature. -/
noncomputable def env : Env ℝ := { C40.env with G := gaussTab ℝ }

/-- A cylindrical panel of two plies. -/
noncomputable def shell : Shell ℝ := { C40.shell with r := some 5 }

/-- The panel at place 12 of a larger matrix, own number of points along `x`. -/
noncomputable def args (c : ℕ → ℝ) : KArgs ℝ where
  size := .plus 20
  row0 := 12
  col0 := 12
  nx := some 6
  c := some (.vec (20 + 3 * shell.pan.m * shell.pan.n) c)

theorem shell_call (c : ℕ → ℝ) : ∃ t, Call env shell t (args c) c ∧ t.Nxx = 0 ∧ t.Nyy = 0 ∧ t.Nxy = 0 ∧
    t.model.bind kindOf = some .cyl := by
  have hk : kindOf (defaultModel (some (5 : ℝ))) = some .cyl := by
    simp [defaultModel, kindOf]
  obtain ⟨t, ht⟩ : ∃ t, shell.rebuild env = .ok t := by
    refine ⟨_, (C54.rebuild_ok_iff env shell _).2 ⟨⟨.cyl, hk⟩, by simp [shell, C40.shell],
      by simp [shell, C40.shell], by simp [shell, C40.shell], _, rfl, rfl⟩⟩
  obtain ⟨-, -, -, -, lam, hl, e⟩ := (C54.rebuild_ok_iff env shell t).1 ht
  refine ⟨t, ⟨ht, bardellShape_C2, by simp [shell, C40.shell, Witness.panel], ?_, ?_, ?_, ?_, rfl,
    by simp [args], ?_⟩, ?_⟩
  · rw [e]; simp [shell]
  · rw [e]; simp [C38.PreStress, shell, C40.shell]
  · rw [e]; simp [args, C38.sizeOf]
  · rw [e]; simp [args, C38.sizeOf, add_comm]
  · intro F hF p q
    have hl' : lam.ABD = fun i j => if i = j then (1 : ℝ) + 1 else 0 := by
      have := Except.ok.inj hl
      rw [← this]
      simp [shell, C40.shell, orFill]
    rw [e] at hF
    cases hF
    simp only [C38.lamField, args, hl', shell, C40.shell, lamABD]
    exact ⟨fun i j => by simp [eq_comm], by simp, by simp, by simp⟩
  · rw [e]
    exact ⟨rfl, rfl, rfl, hk⟩

/-- A membrane state of the cylinder: the tangent of the method is the Jacobian. -/
example (c : ℕ → ℝ) (hc : ∀ k, k % 3 = 2 → c k = 0) : ∃ (kT : Coo ℝ) (w : Shell ℝ)
    (f : (ℕ → ℝ) → VecW ℝ), shell.calcKT env (args c) = .ok (kT, w) ∧
    (∀ e, w.calcFint env (.vec (20 + 3 * shell.pan.m * shell.pan.n) e) (.plus 20) 12 (some 6) none none
      = .ok (f e, w)) ∧ ∀ d e, Jacobian kT f c d e := by
  obtain ⟨t, h, h1, h2, h3, -⟩ := shell_call c
  obtain ⟨kT, w, f, q1, q2, q3⟩ := shell_jacobian_partial h ⟨h1, h2, h3⟩ fun x y => by
    have : ∀ i, (12 + 3 * i + 2) % 3 = 2 := fun i => by omega
    rw [u_dx h.smooth, u_dy h.smooth]
    simp [disp, args, hc, this]
  have hs : C38.sizeOf (3 * t.pan.m * t.pan.n) (args c).size
      = 20 + 3 * shell.pan.m * shell.pan.n := by
    have := h.state
    simp only [args, Option.some.injEq, CArg.vec.injEq] at this
    exact this.1.symm
  rw [hs] at q2
  exact ⟨kT, w, f, q1, q2, q3⟩

end Verif.C16

import Verif.Proofs.ShellBase

/-!
# C38: which formulation `calc_kC` uses

The part "does not fail for any documented combination" is false: two combinations make the compiled
builder read an array that was not given (`state_missing`, `cte_state_missing`).  For every other
combination of the optional arguments `outcome_partial` gives the result.
-/

set_option linter.unusedSectionVars false

namespace Verif.C38

open Model

variable {K : Type} [Field K] [DecidableEq K]

/-- The size of the matrix asked for: own size, a number, or own size plus a number. -/
def sizeOf (own : ℕ) : SizeArg → ℕ
  | .none => own
  | .num n => n
  | .plus n => n + own

/-- The arguments have the documented shapes. -/
structure Documented (s : Shell K) (A : KArgs K) (nx ny : ℕ) : Prop where
  c : ∀ x, A.c = some x → ∃ f, x = .vec (sizeOf (3 * s.pan.m * s.pan.n) A.size) f
  cCte : ∀ x, A.cCte = some x → ∃ f, x = .vec (sizeOf (3 * s.pan.m * s.pan.n) A.size) f
  abd : ∀ x, A.ABDnxny = some x → ∃ f, x = .field nx ny f
  row : A.row0 + 3 * s.pan.m * s.pan.n ≤ sizeOf (3 * s.pan.m * s.pan.n) A.size
  col : A.col0 + 3 * s.pan.m * s.pan.n ≤ sizeOf (3 * s.pan.m * s.pan.n) A.size

/-- Coefficients of an optional state, zero if absent. -/
def coef : Option (CArg K) → ℕ → K
  | some (.vec _ f) => f
  | _ => fun _ => 0

/-- Laminate at each integration point: the given field, else the panel's laminate everywhere. -/
def lamField (F : ℕ → ℕ → K) : Option (LamInput K) → ℕ → ℕ → ℕ → ℕ → K
  | some (.field _ _ f) => f
  | _ => fun _ _ => F

/-- A pre-stress is defined on the panel. -/
def PreStress (s : Shell K) : Prop := s.NxxCte ≠ 0 ∨ s.NyyCte ≠ 0 ∨ s.NxyCte ≠ 0

theorem anyCte_iff (s : Shell K) : s.anyCte = true ↔ PreStress s := by
  simp [Shell.anyCte, PreStress, or_assoc]

theorem size_eq (s : Shell K) (A : KArgs K) :
    A.size.value (3 * s.pan.m * s.pan.n) = sizeOf (3 * s.pan.m * s.pan.n) A.size := by
  cases A.size <;> rfl

theorem lamAt_doc {nx ny : ℕ} (F : ℕ → ℕ → K) (x : Option (LamInput K))
    (h : ∀ y, x = some y → ∃ f, y = .field nx ny f) :
    lamAt nx ny (x.getD (.one F)) = .ok (lamField F x) := by
  cases x with
  | none => rfl
  | some y => obtain ⟨f, rfl⟩ := h y rfl; simp [lamAt, lamField]

theorem check_doc {n : ℕ} (x : Option (CArg K)) (h : ∀ y, x = some y → ∃ f, y = .vec n f) :
    checkOpt x n = .ok () := by
  cases x with
  | none => rfl
  | some y => obtain ⟨f, rfl⟩ := h y rfl; simp [checkOpt, checkC]

open Classical in
/-- The constitutive part asked for: the closed form exactly when there is no state, no laminate field
and no geometric non-linearity. -/
noncomputable def wantC (E : Env K) (k : Kind) (P : Panel K) (lamF F : ℕ → ℕ → K) (A : KArgs K)
    (nx ny : ℕ) : Coo K :=
  if A.c = none ∧ A.ABDnxny = none ∧ A.NLgeom = false then fk0 E k P lamF A.row0 A.col0
  else fkCnumF E k P (lamField F A.ABDnxny) (if A.NLgeom then coef A.c else fun _ => 0) A.row0 A.col0
    nx ny (if A.NLgeom then 1 else 0)

open Classical in
/-- The pre-stress part asked for: none, closed form, or numerical. -/
noncomputable def wantG (E : Env K) (k : Kind) (s : Shell K) (F : ℕ → ℕ → K) (A : KArgs K)
    (nx ny : ℕ) : Coo K :=
  if A.cCte = none ∧ ¬ PreStress s then []
  else if A.cCte = none ∧ A.NLgeom = false then
    fkG0 E k s.panel s.NxxCte s.NyyCte s.NxyCte A.row0 A.col0
  else fkGnumF E k s.panel (lamField F A.ABDnxny) (coef A.cCte) A.row0 A.col0 nx ny
    (if A.NLgeom then 1 else 0) s.NxxCte s.NyyCte s.NxyCte

theorem kCpart_eq (E : Env K) (s : Shell K) (A : KArgs K) {k : Kind} {lam : LamObj K}
    {F : ℕ → ℕ → K} (hb : s.built = .ok (k, lam, F))
    (hd : Documented s A (A.nx.getD s.nx) (A.ny.getD s.ny))
    (h1 : A.NLgeom = true → A.c = none → A.ABDnxny = none) :
    s.kCpart E (sizeOf (3 * s.pan.m * s.pan.n) A.size) A
      = .ok (wantC E k s.panel lam.ABD F A (A.nx.getD s.nx) (A.ny.getD s.ny)) := by
  have hin : InSize s.panel A.row0 A.col0 (sizeOf (3 * s.pan.m * s.pan.n) A.size) := ⟨hd.row, hd.col⟩
  have hl := lamAt_doc F A.ABDnxny hd.abd
  have hw : wantC E k s.panel lam.ABD F A (A.nx.getD s.nx) (A.ny.getD s.ny)
      = if A.c = none ∧ A.ABDnxny = none ∧ A.NLgeom = false then
          fk0 E k s.panel lam.ABD A.row0 A.col0
        else fkCnumF E k s.panel (lamField F A.ABDnxny) (if A.NLgeom then coef A.c else fun _ => 0)
          A.row0 A.col0 (A.nx.getD s.nx) (A.ny.getD s.ny) (if A.NLgeom then 1 else 0) := by
    unfold wantC; congr
  rw [hw]
  unfold Shell.kCpart
  simp only [hb, bind, Except.bind]
  by_cases hA : A.c = none ∧ A.ABDnxny = none ∧ A.NLgeom = false
  · rw [if_pos hA, if_neg (by simp [hA])]
    exact fk0_sparse E k s.panel lam.ABD hin
  · rw [if_neg hA, if_pos]
    · cases hN : A.NLgeom with
      | false =>
        simp only [Bool.false_eq_true, if_false, fkCnum_eq, hl, Except.map, lift]
        exact fkCnumF_sparse E k s.panel _ _ _ _ _ hin
      | true =>
        have hr : readable (vecC A.c A.ABDnxny (sizeOf (3 * s.pan.m * s.pan.n) A.size)) A.col0 s.panel
            = .ok (coef A.c) := by
          cases hc : A.c with
          | none =>
            rw [h1 hN hc]
            simp only [vecC, readable, coef]
            exact if_pos hd.col
          | some x =>
            obtain ⟨f, rfl⟩ := hd.c x hc
            simp only [vecC, readable, coef]
            exact if_pos hd.col
        simp only [if_true, hr, fkCnum_eq, hl, Except.map, lift]
        exact fkCnumF_sparse E k s.panel _ _ _ _ _ hin
    · cases hc : A.c <;> cases ha : A.ABDnxny <;> cases hN : A.NLgeom <;> simp_all

theorem kGcte_eq (E : Env K) (s : Shell K) (A : KArgs K) {k : Kind} {lam : LamObj K}
    {F : ℕ → ℕ → K} (hb : s.built = .ok (k, lam, F))
    (hd : Documented s A (A.nx.getD s.nx) (A.ny.getD s.ny))
    (h2 : A.NLgeom = true → PreStress s → A.cCte ≠ none) :
    s.kGcte E (sizeOf (3 * s.pan.m * s.pan.n) A.size) A
      = .ok (wantG E k s F A (A.nx.getD s.nx) (A.ny.getD s.ny)) := by
  have hin : InSize s.panel A.row0 A.col0 (sizeOf (3 * s.pan.m * s.pan.n) A.size) := ⟨hd.row, hd.col⟩
  have hl := lamAt_doc F A.ABDnxny hd.abd
  have hk := check_doc A.cCte hd.cCte
  unfold Shell.kGcte
  by_cases hp : PreStress s
  · have ha := (anyCte_iff s).2 hp
    rw [if_pos (by simp [ha])]
    simp only [hk, hb, bind, Except.bind]
    cases hc : A.cCte with
    | none =>
      have hN : A.NLgeom = false := by
        cases hN : A.NLgeom
        · rfl
        · exact absurd hc (h2 hN hp)
      have hw : wantG E k s F A (A.nx.getD s.nx) (A.ny.getD s.ny)
          = fkG0 E k s.panel s.NxxCte s.NyyCte s.NxyCte A.row0 A.col0 := by
        unfold wantG
        rw [if_neg (by simp [hp]), if_pos ⟨hc, hN⟩]
      rw [hw, if_pos (by simp [hN])]
      exact fkG0_sparse E k s.panel _ _ _ hin
    | some x =>
      have hw : wantG E k s F A (A.nx.getD s.nx) (A.ny.getD s.ny)
          = fkGnumF E k s.panel (lamField F A.ABDnxny) (coef (some x)) A.row0 A.col0 (A.nx.getD s.nx)
            (A.ny.getD s.ny) (if A.NLgeom then 1 else 0) s.NxxCte s.NyyCte s.NxyCte := by
        unfold wantG
        rw [if_neg (by simp [hc]), if_neg (by simp [hc]), hc]
      obtain ⟨f, rfl⟩ := hd.cCte x hc
      rw [hw, if_neg (by simp)]
      have hr : readable (CArg.vec (sizeOf (3 * s.pan.m * s.pan.n) A.size) f) A.col0 s.panel = .ok f :=
        if_pos hd.col
      simp only [Option.getD_some, hr, fkGnum_eq, hl, Except.map, lift, coef]
      exact fkGnumF_sparse E k s.panel _ _ _ _ _ _ _ _ hin
  · have ha : s.anyCte = false := by
      rw [← Bool.not_eq_true, anyCte_iff]; exact hp
    cases hc : A.cCte with
    | none =>
      have hw : wantG E k s F A (A.nx.getD s.nx) (A.ny.getD s.ny) = [] := by
        unfold wantG
        rw [if_pos ⟨hc, hp⟩]
      rw [hw, if_neg (by simp [ha])]
    | some x =>
      have hw : wantG E k s F A (A.nx.getD s.nx) (A.ny.getD s.ny)
          = fkGnumF E k s.panel (lamField F A.ABDnxny) (coef (some x)) A.row0 A.col0 (A.nx.getD s.nx)
            (A.ny.getD s.ny) (if A.NLgeom then 1 else 0) s.NxxCte s.NyyCte s.NxyCte := by
        unfold wantG
        rw [if_neg (by simp [hc]), if_neg (by simp [hc]), hc]
      rw [hc] at hk
      obtain ⟨f, rfl⟩ := hd.cCte x hc
      rw [hw, if_pos (by simp)]
      simp only [hk, hb, bind, Except.bind]
      rw [if_neg (by simp)]
      have hr : readable (CArg.vec (sizeOf (3 * s.pan.m * s.pan.n) A.size) f) A.col0 s.panel = .ok f :=
        if_pos hd.col
      simp only [Option.getD_some, hr, fkGnum_eq, hl, Except.map, lift, coef]
      exact fkGnumF_sparse E k s.panel _ _ _ _ _ _ _ _ hin

/-- For a panel that can be rebuilt and arguments of the documented shapes, other than the two
combinations below, `calc_kC` succeeds with the constitutive part plus the pre-stress part asked for. -/
theorem outcome_partial (E : Env K) (s t : Shell K) (A : KArgs K) (ht : s.rebuild E = .ok t)
    (hd : Documented t A (A.nx.getD t.nx) (A.ny.getD t.ny))
    (h1 : A.NLgeom = true → A.c = none → A.ABDnxny = none)
    (h2 : A.NLgeom = true → PreStress t → A.cCte ≠ none) :
    ∃ k lam F, t.model.bind kindOf = some k ∧ t.lam = some lam ∧ t.ABD = some F ∧
      s.calcKC E A = .ok (fin A.finalize
        (wantC E k t.fixR.panel lam.ABD F A (A.nx.getD t.nx) (A.ny.getD t.ny)
          ++ wantG E k t.fixR F A (A.nx.getD t.nx) (A.ny.getD t.ny)), t.fixR) := by
  obtain ⟨k, lam, F, hb, hk, hl, hF⟩ := rebuild_built E s t ht
  refine ⟨k, lam, F, hk, hl, hF, ?_⟩
  have hd' : Documented t.fixR A (A.nx.getD t.nx) (A.ny.getD t.ny) :=
    ⟨hd.c, hd.cCte, hd.abd, hd.row, hd.col⟩
  have hC := kCpart_eq E t.fixR A hb hd' h1
  have hG := kGcte_eq E t.fixR A hb hd' h2
  unfold Shell.calcKC
  simp only [ht, bind, Except.bind, size_eq, check_doc A.c hd.c]
  simp only [show t.fixR.pan = t.pan from rfl] at hC hG
  simp only [hC, hG]
  rfl

/-- A state of another size is refused, whatever the other arguments. -/
theorem wrong_state (E : Env K) (s t : Shell K) (A : KArgs K) (ht : s.rebuild E = .ok t) (len : ℕ)
    (f : ℕ → K) (hc : A.c = some (.vec len f))
    (hn : len ≠ sizeOf (3 * t.pan.m * t.pan.n) A.size) :
    s.calcKC E A = .error (.raised .valueError) := by
  unfold Shell.calcKC
  simp only [ht, bind, Except.bind, size_eq, hc, checkOpt, checkC, if_pos hn]

/-- So is a state that is not a one-dimensional array. -/
theorem no_vector (E : Env K) (s t : Shell K) (A : KArgs K) (ht : s.rebuild E = .ok t) :
    (A.c = some .otherDim → s.calcKC E A = .error (.raised .valueError)) ∧
    (A.c = some .notArray → s.calcKC E A = .error (.raised .typeError)) := by
  constructor <;>
  · intro hc
    unfold Shell.calcKC
    simp only [ht, bind, Except.bind, hc, checkOpt, checkC]

/-- A pre-stress state of another size is refused (when the first part succeeds). -/
theorem wrong_cte (E : Env K) (s t : Shell K) (A : KArgs K) (ht : s.rebuild E = .ok t) (len : ℕ)
    (f : ℕ → K) (hc : A.cCte = some (.vec len f))
    (hn : len ≠ sizeOf (3 * t.pan.m * t.pan.n) A.size) :
    ∃ e, s.calcKC E A = .error e := by
  have hG : t.fixR.kGcte E (sizeOf (3 * t.pan.m * t.pan.n) A.size) A
      = .error (.raised .valueError) := by
    unfold Shell.kGcte
    rw [if_pos (by simp [hc])]
    simp only [hc, checkOpt, checkC, bind, Except.bind, if_pos hn]
  unfold Shell.calcKC
  simp only [ht, bind, Except.bind, size_eq]
  cases checkOpt A.c (sizeOf (3 * t.pan.m * t.pan.n) A.size) with
  | error e => exact ⟨_, rfl⟩
  | ok u =>
    simp only
    cases t.fixR.kCpart E (sizeOf (3 * t.pan.m * t.pan.n) A.size) A with
    | error e => exact ⟨_, rfl⟩
    | ok L =>
      simp only [hG]
      exact ⟨_, rfl⟩

/-- Without geometric non-linearity the values of the state do not matter: two states of the right
size give the same matrix. -/
theorem state_unused (E : Env K) (s t : Shell K) (A : KArgs K) (ht : s.rebuild E = .ok t)
    (hN : A.NLgeom = false) (f g : ℕ → K) :
    s.calcKC E { A with c := some (.vec (sizeOf (3 * t.pan.m * t.pan.n) A.size) f) }
      = s.calcKC E { A with c := some (.vec (sizeOf (3 * t.pan.m * t.pan.n) A.size) g) } := by
  unfold Shell.calcKC
  simp only [ht, bind, Except.bind, size_eq]
  simp only [checkOpt, checkC, ne_eq, not_true_eq_false, if_false]
  unfold Shell.kCpart Shell.kGcte
  simp only [hN, Option.isSome_some, Bool.true_or, if_true, Bool.false_eq_true, if_false]

/-- A laminate field and geometric non-linearity but no state: the builder reads past the single
element of the array it is given. -/
theorem state_missing (E : Env K) (s t : Shell K) (A : KArgs K) (ht : s.rebuild E = .ok t)
    (hN : A.NLgeom = true) (hc : A.c = none) (ha : A.ABDnxny ≠ none) :
    s.calcKC E A = .error .undef := by
  obtain ⟨k, lam, F, hb, hk, hl, hF⟩ := rebuild_built E s t ht
  obtain ⟨x, hx⟩ := Option.ne_none_iff_exists'.1 ha
  unfold Shell.calcKC
  simp only [ht, bind, Except.bind, hc, checkOpt]
  unfold Shell.kCpart
  simp only [hb, bind, Except.bind, hN, hc, hx, vecC, readable, Bool.or_true, if_true]

/-- Geometric non-linearity and a constant pre-stress but no state for it: the builder reads `None`. -/
theorem cte_state_missing (E : Env K) (s t : Shell K) (A : KArgs K) (ht : s.rebuild E = .ok t)
    (hN : A.NLgeom = true) (hp : PreStress t) (hc : A.cCte = none) :
    ∃ e, s.calcKC E A = .error e := by
  obtain ⟨k, lam, F, hb, hk, hl, hF⟩ := rebuild_built E s t ht
  have hG (size : ℕ) : t.fixR.kGcte E size A = .error .undef := by
    unfold Shell.kGcte
    have : t.fixR.anyCte = true := (anyCte_iff t).2 hp
    rw [if_pos (by simp [this])]
    simp only [hc, checkOpt, hb, bind, Except.bind, hN, Option.getD_none, readable]
    rfl
  unfold Shell.calcKC
  simp only [ht, bind, Except.bind, size_eq]
  cases checkOpt A.c (sizeOf (3 * t.pan.m * t.pan.n) A.size) with
  | error e => exact ⟨_, rfl⟩
  | ok u =>
    simp only
    cases t.fixR.kCpart E (sizeOf (3 * t.pan.m * t.pan.n) A.size) A with
    | error e => exact ⟨_, rfl⟩
    | ok L => simp only [hG]; exact ⟨_, rfl⟩

/-- The two combinations are documented ones, so the last part of the claim is violated. -/
theorem claim_violated : ∃ (s t : Shell ℚ) (A B : KArgs ℚ), s.rebuild C54.env = .ok t ∧
    Documented t A (A.nx.getD t.nx) (A.ny.getD t.ny) ∧
    Documented t B (B.nx.getD t.nx) (B.ny.getD t.ny) ∧
    s.calcKC C54.env A = .error .undef ∧ (∃ e, s.calcKC C54.env B = .error e) := by
  obtain ⟨t, ht⟩ : ∃ t, ({ C54.shell with NxxCte := 1 } : Shell ℚ).rebuild C54.env = .ok t :=
    ⟨_, rfl⟩
  have hm : t.NxxCte = 1 := by
    obtain ⟨-, -, -, -, lam, -, rfl⟩ := (C54.rebuild_ok_iff _ _ t).1 ht
    rfl
  refine ⟨{ C54.shell with NxxCte := 1 }, t,
    { NLgeom := true, ABDnxny := some (.field t.nx t.ny fun _ _ i j => if i = j then 1 else 0) },
    { NLgeom := true }, ht, ?_, ?_, ?_, ?_⟩
  · exact ⟨by simp, by simp, by simp, by simp [sizeOf], by simp [sizeOf]⟩
  · exact ⟨by simp, by simp, by simp, by simp [sizeOf], by simp [sizeOf]⟩
  · exact state_missing _ _ t _ ht rfl rfl (by simp)
  · exact cte_state_missing _ _ t _ ht rfl (Or.inl (by rw [hm]; exact one_ne_zero)) rfl

/-- Arguments with everything given. -/
def args (NL : Bool) (f g : ℕ → ℚ) : KArgs ℚ where
  size := .plus 10
  row0 := 10
  col0 := 4
  c := some (.vec 115 f)
  cCte := some (.vec 115 g)
  NLgeom := NL

/-- `outcome_partial` applies to a panel with a pre-stress, a state and a pre-stress state placed in a
larger matrix, with and without geometric non-linearity. -/
example (NL : Bool) (f g : ℕ → ℚ) : ∃ t, ({ C54.shell with NyyCte := -3 } : Shell ℚ).rebuild C54.env
      = .ok t ∧ PreStress t ∧ Documented t (args NL f g) t.nx t.ny := by
  refine ⟨_, rfl, Or.inr (Or.inl (by norm_num)), ?_⟩
  constructor <;> simp [args, sizeOf, C54.shell, Witness.panel]

end Verif.C38

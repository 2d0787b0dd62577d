import Verif.Props.C83

/-!
# C85: amplitudes that do not fit are refused

`Fits c size`: an array of one dimension with `size` elements.  `calc_kC`, `calc_kG`, `calc_kT` of panels and
assemblies return nothing for other arguments; what they raise is said by `refusal`.  Violated for `calc_fint`
of a panel: it takes longer vectors (`fint_longer`, `fint_violated`), and it reads outside shorter ones
(`fint_shorter`).  `calc_fint` of an assembly returns only for vectors that fit (`multi_fint`), but reads
outside of shorter ones too (`multi_fint_violated`).
-/

set_option linter.unusedSectionVars false

namespace Verif.C85

open Model

variable {K : Type} [Field K] [LinearOrder K] {E : Env K} {s : Shell K} {M : Multi K}

/-- An array of one dimension with `size` elements. -/
def Fits (c : CArg K) (size : ℕ) : Prop := ∃ f, c = .vec size f

/-- What has to be raised for an argument that does not fit. -/
inductive Refusal (size : ℕ) : CArg K → Fail → Prop
  | type : Refusal size .notArray (.raised .typeError)
  | dim : Refusal size .otherDim (.raised .valueError)
  | len (n : ℕ) (f : ℕ → K) : n ≠ size → Refusal size (.vec n f) (.raised .valueError)

/-- An argument fits or has to be refused, not both. -/
theorem fits_or (c : CArg K) (size : ℕ) :
    (Fits c size ∧ ∀ e, ¬Refusal size c e) ∨ (¬Fits c size ∧ ∃ e, Refusal size c e) := by
  cases c with
  | notArray => exact .inr ⟨fun ⟨f, h⟩ => (by cases h), _, .type⟩
  | otherDim => exact .inr ⟨fun ⟨f, h⟩ => (by cases h), _, .dim⟩
  | vec n f =>
    by_cases h : n = size
    · subst h
      refine .inl ⟨⟨f, rfl⟩, ?_⟩
      rintro e (_ | _ | ⟨_, _, h⟩)
      exact h rfl
    · exact .inr ⟨fun ⟨f, e⟩ => h (by cases e; rfl), _, .len n f h⟩

theorem check_refusal {c : CArg K} {size : ℕ} {e : Fail} (h : Refusal size c e) :
    checkC c size = .error e := by
  rcases h with _ | _ | ⟨n, f, h⟩
  · rfl
  · rfl
  · exact if_pos h

theorem check_ok {c : CArg K} {size : ℕ} {u : Unit} (h : checkC c size = .ok u) : Fits c size := by
  rcases fits_or c size with h1 | ⟨-, e, he⟩
  · exact h1.1
  · rw [check_refusal he] at h; cases h

/-- The size that counts: the given one or the number of the panel's own terms. -/
def sizeOf (s : Shell K) (A : KArgs K) : ℕ := A.size.value (3 * s.pan.m * s.pan.n)

/-! ## Panels -/

/-- A panel that can be built raises what it has to. -/
theorem refusal {t : Shell K} (hr : s.rebuild E = .ok t) (A : KArgs K) {c : CArg K} (hc : A.c = some c)
    {e : Fail} (h : Refusal (sizeOf s A) c e) :
    s.calcKC E A = .error e ∧ s.calcKG E A = .error e ∧ s.calcKT E A = .error e := by
  have hp : t.pan = s.pan := rebuild_pan hr
  have key : ∀ A : KArgs K, A.c = some c → Refusal (sizeOf s A) c e →
      s.calcKC E A = .error e ∧ s.calcKG E A = .error e := by
    intro A hc h
    have hk : checkOpt A.c (A.size.value (3 * t.pan.m * t.pan.n)) = .error e := by
      rw [hc, hp]; exact check_refusal h
    constructor
    · unfold Shell.calcKC
      rw [hr]
      show (checkOpt A.c _ >>= _) = _
      rw [hk]
      rfl
    · unfold Shell.calcKG
      rw [hr]
      show (checkOpt A.c _ >>= _) = _
      rw [hk]
      rfl
  refine ⟨(key A hc h).1, (key A hc h).2, ?_⟩
  unfold Shell.calcKT
  rw [(key { A with cCte := none, NLgeom := true } hc h).1]
  rfl

/-- `calc_kC`. -/
theorem shell_kC (A : KArgs K) {R : Coo K × Shell K} (h : s.calcKC E A = .ok R) :
    (∀ c, A.c = some c → Fits c (sizeOf s A)) ∧ ∀ c, A.cCte = some c → Fits c (sizeOf s A) := by
  unfold Shell.calcKC at h
  obtain ⟨t, hr, h⟩ := bind_ok.1 h
  have hp : t.pan = s.pan := rebuild_pan hr
  obtain ⟨u, h1, h⟩ := bind_ok.1 h
  obtain ⟨kC, -, h⟩ := bind_ok.1 h
  obtain ⟨kG, h2, -⟩ := bind_ok.1 h
  constructor
  · intro c hc
    rw [hc, hp] at h1
    exact check_ok h1
  · intro c hc
    unfold Shell.kGcte at h2
    simp only [hc, Option.isSome_some, Bool.true_or, if_true] at h2
    obtain ⟨u, h2, -⟩ := bind_ok.1 h2
    rw [hp] at h2
    exact check_ok h2

/-- `calc_kG`. -/
theorem shell_kG (A : KArgs K) {R : Coo K × Shell K} (h : s.calcKG E A = .ok R) (c : CArg K)
    (hc : A.c = some c) : Fits c (sizeOf s A) := by
  unfold Shell.calcKG at h
  obtain ⟨t, hr, h⟩ := bind_ok.1 h
  have hp : t.pan = s.pan := rebuild_pan hr
  obtain ⟨u, h1, -⟩ := bind_ok.1 h
  rw [hc, hp] at h1
  exact check_ok h1

/-- `calc_kT`. -/
theorem shell_kT (A : KArgs K) {R : Coo K × Shell K} (h : s.calcKT E A = .ok R) (c : CArg K)
    (hc : A.c = some c) : Fits c (sizeOf s A) := by
  unfold Shell.calcKT at h
  obtain ⟨t, h1, -⟩ := bind_ok.1 h
  exact (shell_kC _ h1).1 c hc

/-- `calc_fint` takes vectors that are longer than needed. -/
theorem fint_longer {n k : ℕ} {f : ℕ → K} {size : SizeArg} {col0 : ℕ}
    {nx ny : Option ℕ} {abd : Option (LamInput K)} {R : VecW K × Shell K}
    (h : s.calcFint E (.vec n f) size col0 nx ny abd = .ok R) :
    s.calcFint E (.vec (n + k) f) size col0 nx ny abd = .ok R ∧ col0 + 3 * s.pan.m * s.pan.n ≤ n := by
  have hle : col0 + 3 * s.pan.m * s.pan.n ≤ n := by
    by_contra hn
    unfold Shell.calcFint at h
    dsimp only at h
    split at h
    · obtain ⟨_, h', -⟩ := bind_ok.1 h
      cases h'
    · obtain ⟨_, -, h⟩ := bind_ok.1 h
      obtain ⟨cs, h2, -⟩ := bind_ok.1 h
      rw [show readable (.vec n f) col0 s.fixR.panel = (.error .undef : Except Fail (ℕ → K)) from
        if_neg hn] at h2
      cases h2
  have e : ∀ n', n ≤ n' → readable (.vec n' f) col0 s.fixR.panel = .ok f := fun n' h => if_pos (hle.trans h)
  refine ⟨?_, hle⟩
  rw [← h]
  unfold Shell.calcFint
  simp only [e n le_rfl, e (n + k) (Nat.le_add_right _ _)]

/-- Shorter vectors: `calc_fint` reads outside of them. -/
theorem fint_shorter {n : ℕ} {f : ℕ → K} {k : Kind} (hk : s.model.bind kindOf = some k) (size : SizeArg)
    (col0 : ℕ) (nx ny : Option ℕ) (abd : Option (LamInput K)) (hn : n < col0 + 3 * s.pan.m * s.pan.n) :
    s.calcFint E (.vec n f) size col0 nx ny abd = .error .undef := by
  have hle : ¬col0 + 3 * s.fixR.panel.m * s.fixR.panel.n ≤ n := not_le.2 hn
  unfold Shell.calcFint
  rw [hk]
  show (readable (.vec n f) col0 s.fixR.panel >>= _) = _
  rw [show readable (.vec n f) col0 s.fixR.panel = (.error .undef : Except Fail (ℕ → K)) from if_neg hle]
  rfl

/-! ## Assemblies -/

/-- An assembly raises what it has to, whatever its panels and connections are. -/
theorem multi_refusal {c : CArg K} {e : Fail} (h : Refusal M.getSize c e)
    (conn : Option (List (ConnD K))) (finalize : Bool) :
    M.calcKC E conn (some c) finalize = .error e ∧ M.calcKG E (some c) finalize = .error e := by
  have hk : checkOpt (some c) M.getSize = .error e := check_refusal h
  constructor
  · unfold Multi.calcKC
    show (checkOpt (some c) M.getSize >>= _) = _
    rw [hk]; rfl
  · unfold Multi.calcKG
    show (checkOpt (some c) M.getSize >>= _) = _
    rw [hk]; rfl

/-- `calc_kC` and `calc_kG`. -/
theorem multi_kC_kG {c : CArg K} (conn : Option (List (ConnD K))) (finalize : Bool) {R : Coo K × Multi K}
    (h : M.calcKC E conn (some c) finalize = .ok R ∨ M.calcKG E (some c) finalize = .ok R) :
    Fits c M.getSize := by
  rcases fits_or c M.getSize with h1 | ⟨-, e, he⟩
  · exact h1.1
  · obtain ⟨g1, g2⟩ := multi_refusal (E := E) he conn finalize
    rw [g1, g2] at h
    rcases h with h | h <;> cases h

/-- `calc_fint`. -/
theorem multi_fint {c : CArg K} {R : VecW K × Multi K} (h : M.calcFint E c = .ok R) :
    Fits c M.getSize := by
  unfold Multi.calcFint at h
  obtain ⟨f, -, h⟩ := bind_ok.1 h
  obtain ⟨g, -, h⟩ := bind_ok.1 h
  obtain ⟨v, hv, -⟩ := bind_ok.1 h
  cases c with
  | notArray => cases hv
  | otherDim => cases hv
  | vec n f =>
    unfold Coo.mulVec at hv
    dsimp only at hv
    split at hv
    · cases hv
    · rename_i hn
      rw [not_not] at hn
      exact ⟨f, by rw [hn]⟩

/-! ## Concrete cases -/

open C82 (env)

/-- The claim is violated: a panel of six amplitudes takes nine. -/
theorem fint_violated : ∃ (s : Shell ℚ) (c : CArg ℚ) (R : VecW ℚ × Shell ℚ),
    s.calcFint env c .none 0 none none none = .ok R ∧ ¬Fits c (3 * s.pan.m * s.pan.n) := by
  obtain ⟨R, hR⟩ := exists_ok (x := C82.shell'.calcFint env (.vec 9 fun i => (i : ℚ)) .none 0 none none none)
    (by decide +kernel)
  refine ⟨C82.shell', _, R, hR, ?_⟩
  rintro ⟨f, h⟩
  have : (9 : ℕ) = 3 * C82.shell'.pan.m * C82.shell'.pan.n := by injection h
  revert this
  decide +kernel

/-- An assembly of six amplitudes reads outside of four. -/
theorem multi_fint_violated : C83.built.getSize = 6 ∧
    ∃ c : CArg ℚ, Refusal 6 c (.raised .valueError) ∧ C83.built.calcFint env c = .error .undef := by
  refine ⟨by decide +kernel, .vec 4 fun i => (i : ℚ), .len 4 _ (by norm_num), ?_⟩
  have h : (match C83.built.calcFint env (.vec 4 fun i => (i : ℚ)) with
    | .error .undef => true
    | _ => false) = true := by decide +kernel
  split at h
  · assumption
  · cases h

example : C83.two.calcKG env (some (.vec 5 fun i => (i : ℚ))) true = .error (.raised .valueError) ∧
    C83.two.calcKG env (some .notArray) true = .error (.raised .typeError) :=
  ⟨(multi_refusal (.len 5 _ (by decide +kernel)) none true).2, (multi_refusal .type none true).2⟩

example : ∃ t, C82.shell.rebuild env = .ok t ∧
    C82.shell.calcKC env { c := some .otherDim } = .error (.raised .valueError) := by
  obtain ⟨t, ht⟩ := exists_ok (x := C82.shell.rebuild env) (by decide +kernel)
  exact ⟨t, ht, (refusal ht _ rfl .dim).1⟩

end Verif.C85

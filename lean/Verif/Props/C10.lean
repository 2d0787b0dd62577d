import Verif.Proofs.EntryForm
import Verif.Proofs.RuleSound
import Verif.Spec.Witness
import Verif.Props.C01
import Verif.Props.C04

/-!
# C10: analytical and numerical linear stiffness agree

`fk0` (analytical) and `fkC_num` (numerical, linear) build the same matrix when the tables are the
exact integrals and the rule integrates the products of the shape functions exactly.  For the
tables as printed, the difference of the entries is bounded.
-/

set_option linter.unusedSectionVars false

namespace Verif.C10

open Finset Spec Model RuleCheck

section exact

variable {K : Type*} [Field K] [CharZero K] [DecidableEq K]

/-- The `n`-point rule gives the mean `M` of every product of derivatives (up to the second) of the
first `m` shape functions. -/
def RuleExact (S : Shape K) (M : Mean K) (G : GaussTab K) (n m : ℕ) : Prop :=
  ∀ p q i k fa fb, i < m → k < m →
    ∑ g ∈ range n, G.wt n g * (S.D p i (G.pt n g) fa * S.D q k (G.pt n g) fb)
      = M.L fun x => S.D p i x fa * S.D q k x fb

theorem sym_of_exact {I : Tab K} {S : Shape K} {M : Mean K} (h : I.Exact S M) : I.Sym where
  ff i j fa fb := by
    have h1 := h.get 0 0 i j fa fb
    have h2 := h.get 0 0 j i fb fa
    simp only [Tab.get] at h1 h2
    rw [h1, h2]
    exact congrArg M.L (funext fun x => mul_comm _ _)
  fpfp i j fa fb := by
    have h1 := h.get 1 1 i j fa fb
    have h2 := h.get 1 1 j i fb fa
    simp only [Tab.get] at h1 h2
    rw [h1, h2]
    exact congrArg M.L (funext fun x => mul_comm _ _)
  fppfpp i j fa fb := by
    have h1 := h.get 2 2 i j fa fb
    have h2 := h.get 2 2 j i fb fa
    simp only [Tab.get] at h1 h2
    rw [h1, h2]
    exact congrArg M.L (funext fun x => mul_comm _ _)

theorem stiff_congr (P : Panel K) (F : ℕ → ℕ → K) (B : ℕ → ℕ → Term K) {I : Tab K} {S : Shape K}
    {M : Mean K} (hI : I.Exact S M) {G : GaussTab K} {nx ny : ℕ}
    (hx : RuleExact S M G nx P.m) (hy : RuleExact S M G ny P.n) {i k j l α β : ℕ} (hi : i < P.m)
    (hk : k < P.m) (hj : j < P.n) (hl : l < P.n) :
    stiff P F B I.get I.get i k j l α β
      = stiff P F B (ruleGet S G nx) (ruleGet S G ny) i k j l α β := by
  unfold stiff
  congr 1
  refine Finset.sum_congr rfl fun s _ => Finset.sum_congr rfl fun t _ => ?_
  rw [hI.get, hI.get, ← hx _ _ _ _ _ _ hi hk, ← hy _ _ _ _ _ _ hj hl]
  rfl

/-- Exact tables and exact rule: every entry of the analytical stiffness is the entry of the
numerical one.  Plate, for all numbers of terms, flags, sizes and symmetric laminates. -/
theorem plate_entries_agree {I : Tab K} {S : Shape K} {M : Mean K} (hI : I.Exact S M)
    {G : GaussTab K} {nx ny : ℕ} (P : Panel K) (hx : RuleExact S M G nx P.m)
    (hy : RuleExact S M G ny P.n) (ha : P.a ≠ 0) (hb : P.b ≠ 0) (hP : FullDomain P)
    (F : ℕ → ℕ → K) (hF : ABDSym F) (cs : ℕ → K) (s0 NL : ℕ) (hNL : NL ≠ 1) {i k j l α β : ℕ}
    (hi : i < P.m) (hk : k < P.m) (hj : j < P.n) (hl : l < P.n) (hα : α < 3) (hβ : β < 3) :
    ∃ L, plateFkCnum S G P (.one F) cs s0 s0 nx ny NL = .ok L ∧
      Coo.entry (Coo.finalizeSym (plateFk0 I P F s0 s0))
          (s0 + 3 * (j * P.m + i) + α) (s0 + 3 * (l * P.m + k) + β)
        = Coo.entry (Coo.finalizeSym L)
          (s0 + 3 * (j * P.m + i) + α) (s0 + 3 * (l * P.m + k) + β) := by
  refine ⟨_, rfl, ?_⟩
  have h1 := plate_ana_entry (sym_of_exact hI) P ha hb F hF s0 hi hk hj hl hα hβ
  have h2 := plate_num_entry S G P ha hb hP F hF cs s0 nx ny NL hNL hi hk hj hl hα hβ
  exact h1.trans ((stiff_congr P F _ hI hx hy hi hk hj hl).trans h2.symm)

/-- The same for the cylinder. -/
theorem cyl_entries_agree {I : Tab K} {S : Shape K} {M : Mean K} (hI : I.Exact S M)
    {G : GaussTab K} {nx ny : ℕ} (P : Panel K) (hx : RuleExact S M G nx P.m)
    (hy : RuleExact S M G ny P.n) (ha : P.a ≠ 0) (hb : P.b ≠ 0) (hr : P.r ≠ 0)
    (hP : FullDomain P) (F : ℕ → ℕ → K) (hF : ABDSym F) (cs : ℕ → K) (s0 NL : ℕ) (hNL : NL ≠ 1)
    {i k j l α β : ℕ} (hi : i < P.m) (hk : k < P.m) (hj : j < P.n) (hl : l < P.n) (hα : α < 3)
    (hβ : β < 3) :
    ∃ L, cylFkCnum S G P (.one F) cs s0 s0 nx ny NL = .ok L ∧
      Coo.entry (Coo.finalizeSym (cylFk0 I P F s0 s0))
          (s0 + 3 * (j * P.m + i) + α) (s0 + 3 * (l * P.m + k) + β)
        = Coo.entry (Coo.finalizeSym L)
          (s0 + 3 * (j * P.m + i) + α) (s0 + 3 * (l * P.m + k) + β) := by
  refine ⟨_, rfl, ?_⟩
  have h1 := cyl_ana_entry (sym_of_exact hI) P ha hb hr F hF s0 hi hk hj hl hα hβ
  have h2 := cyl_num_entry S G P ha hb hr hP F hF cs s0 nx ny NL hNL hi hk hj hl hα hβ
  exact h1.trans ((stiff_congr P F _ hI hx hy hi hk hj hl).trans h2.symm)

end exact

/-! ## The printed tables -/

/-- All printed integrals are at most 3/2 and carry the flags of their functions. -/
def small (T : List (List Gen.IEntry)) : Bool :=
  T.all fun row => row.all fun e => decide (|dec e.z e.e| ≤ 3 / 2)

theorem small_ff : small Gen.i_ff = true := by decide +kernel
theorem small_ffp : small Gen.i_ffp = true := by decide +kernel
theorem small_ffpp : small Gen.i_ffpp = true := by decide +kernel
theorem small_fpfp : small Gen.i_fpfp = true := by decide +kernel
theorem small_fpfpp : small Gen.i_fpfpp = true := by decide +kernel
theorem small_fppfpp : small Gen.i_fppfpp = true := by decide +kernel

/-- Every flag is at most 1 in absolute value (the code uses 0 and 1). -/
def FlagsLe (fl : Flags ℝ) : Prop := ∀ k, |fl.get k| ≤ 1

theorem flag_le {fl : Flags ℝ} (h : FlagsLe fl) (i : ℕ) : |flag fl i| ≤ 1 := by
  have := h i
  match i with
  | 0 => exact this
  | 1 => exact this
  | 2 => exact this
  | 3 => exact this
  | i + 4 => exact this

theorem small_sound {T : List (List Gen.IEntry)} (h : small T = true) (i j : ℕ) {fa fb : Flags ℝ}
    (ha : FlagsLe fa) (hb : FlagsLe fb) : |intVal T i j fa fb| ≤ 3 / 2 := by
  rcases hf : findEntry T i j with _ | e
  · simp only [intVal, hf, abs_zero]; norm_num
  · simp only [intVal, hf, abs_mul]
    have hz : |dec e.z e.e| ≤ 3 / 2 := by
      rw [findEntry] at hf
      split at hf
      · rename_i row hr
        rw [small, List.all_eq_true] at h
        have h1 := h row (List.mem_of_getElem? hr)
        rw [List.all_eq_true] at h1
        simpa using h1 e (List.mem_of_find?_eq_some hf)
      · simp at hf
    have hz' : |((dec e.z e.e : ℚ) : ℝ)| ≤ 3 / 2 := by
      have := (Rat.cast_le (K := ℝ)).2 hz
      rw [Rat.cast_abs] at this
      push_cast at this
      exact this
    calc _ ≤ 3 / 2 * 1 * 1 := mul_le_mul (mul_le_mul hz' (ha _) (abs_nonneg _) (by norm_num))
          (hb _) (abs_nonneg _) (by norm_num)
      _ = 3 / 2 := by norm_num

theorem get_small (p q i k : ℕ) {fa fb : Flags ℝ} (ha : FlagsLe fa) (hb : FlagsLe fb) :
    |(intTab ℝ).get p q i k fa fb| ≤ 3 / 2 := by
  match p, q with
  | 0, 0 => exact small_sound small_ff _ _ ha hb
  | 0, 1 => exact small_sound small_ffp _ _ ha hb
  | 1, 0 => exact small_sound small_ffp _ _ hb ha
  | 0, q+2 => exact small_sound small_ffpp _ _ ha hb
  | p+2, 0 => exact small_sound small_ffpp _ _ hb ha
  | 1, 1 => exact small_sound small_fpfp _ _ ha hb
  | 1, q+2 => exact small_sound small_fpfpp _ _ ha hb
  | p+2, 1 => exact small_sound small_fpfpp _ _ hb ha
  | p+2, q+2 => exact small_sound small_fppfpp _ _ ha hb

/-- Error of a printed integral against the Gauss sum of the printed functions. -/
noncomputable def eps (N : ℕ) : ℝ := if N ≤ 15 then 2 / 10 ^ 15 else 4 / 10 ^ 8

theorem del_eps {i k N : ℕ} (hi : i < N) (hk : k < N) : del i k ≤ eps N := by
  unfold del eps
  split_ifs
  · exact le_rfl
  · norm_num
  · omega
  · exact le_rfl

theorem eps_nonneg (N : ℕ) : 0 ≤ eps N := by unfold eps; split_ifs <;> norm_num

theorem eps_mono {M N : ℕ} (h : M ≤ N) : eps M ≤ eps N := by
  unfold eps
  split_ifs
  · exact le_rfl
  · norm_num
  · omega
  · exact le_rfl

theorem get_rule {m n : ℕ} (hm : m ≤ 30) (h4 : 4 ≤ n) (hmn : m ≤ n) (h64 : n ≤ 64) {i k : ℕ}
    (hi : i < m) (hk : k < m) (p q : ℕ) {fa fb : Flags ℝ} (ha : FlagsLe fa) (hb : FlagsLe fb) :
    |(intTab ℝ).get p q i k fa fb - ruleGet (scShape ℝ) (gaussTab ℝ) n p q i k fa fb| ≤ eps m := by
  have e1 : del i k * (|flag fa i| * |flag fb k|) ≤ eps m := by
    calc _ ≤ eps m * (1 * 1) := mul_le_mul (del_eps hi hk)
          (mul_le_mul (flag_le ha i) (flag_le hb k) (abs_nonneg _) zero_le_one)
          (by positivity) (eps_nonneg m)
      _ = eps m := by ring
  have e2 : del k i * (|flag fb k| * |flag fa i|) ≤ eps m := by
    calc _ ≤ eps m * (1 * 1) := mul_le_mul (del_eps hk hi)
          (mul_le_mul (flag_le hb k) (flag_le ha i) (abs_nonneg _) zero_le_one)
          (by positivity) (eps_nonneg m)
      _ = eps m := by ring
  have sw : ∀ p q, ruleGet (scShape ℝ) (gaussTab ℝ) n p q i k fa fb
      = ruleGet (scShape ℝ) (gaussTab ℝ) n q p k i fb fa := fun p q =>
    Finset.sum_congr rfl fun g _ => by rw [mul_comm (Shape.D _ p _ _ _)]
  have h1 : i < n := by omega
  have h2 : k < n := by omega
  have h3 : i < 30 := by omega
  have h5 : k < 30 := by omega
  match p, q with
  | 0, 0 => exact (sound row_f row_f ff_ok i k h3 h5 n h4 h1 h2 h64 fa fb).trans e1
  | 0, 1 => exact (sound row_f row_fp ffp_ok i k h3 h5 n h4 h1 h2 h64 fa fb).trans e1
  | 1, 0 => rw [sw]; exact (sound row_f row_fp ffp_ok k i h5 h3 n h4 h2 h1 h64 fb fa).trans e2
  | 0, q+2 => exact (sound row_f row_fpp ffpp_ok i k h3 h5 n h4 h1 h2 h64 fa fb).trans e1
  | p+2, 0 => rw [sw]; exact (sound row_f row_fpp ffpp_ok k i h5 h3 n h4 h2 h1 h64 fb fa).trans e2
  | 1, 1 => exact (sound row_fp row_fp fpfp_ok i k h3 h5 n h4 h1 h2 h64 fa fb).trans e1
  | 1, q+2 => exact (sound row_fp row_fpp fpfpp_ok i k h3 h5 n h4 h1 h2 h64 fa fb).trans e1
  | p+2, 1 => rw [sw]; exact (sound row_fp row_fpp fpfpp_ok k i h5 h3 n h4 h2 h1 h64 fb fa).trans e2
  | p+2, q+2 =>
    exact (sound row_fpp row_fpp fppfpp_ok i k h3 h5 n h4 h1 h2 h64 fa fb).trans e1

/-- Flags, numbers of terms and orders of the rule that the program supports. -/
structure Supported (P : Panel ℝ) (nx ny : ℕ) : Prop where
  m : P.m ≤ 30
  n : P.n ≤ 30
  nx : P.m ≤ nx ∧ 4 ≤ nx ∧ nx ≤ 64
  ny : P.n ≤ ny ∧ 4 ≤ ny ∧ ny ≤ 64
  xf : ∀ α, FlagsLe (P.xf α)
  yf : ∀ α, FlagsLe (P.yf α)

/-- Scale of entry `(α, β)` of the stiffness: the sum of the absolute values of the laminate
terms times the derivative factors `2/a`, `2/b`, `1/r` (`B s α`). -/
noncomputable def scale (P : Panel ℝ) (F : ℕ → ℕ → ℝ) (B : ℕ → ℕ → Term ℝ) (α β : ℕ) : ℝ :=
  |P.a * P.b / 4| * ∑ s ∈ range 6, ∑ t ∈ range 6, |F s t| * (|(B s α).k| * |(B t β).k|)

theorem prod_bound {X X' Y Y' e : ℝ} (he : e ≤ 1) (hX : |X| ≤ 3 / 2) (hY : |Y| ≤ 3 / 2)
    (h1 : |X - X'| ≤ e) (h2 : |Y - Y'| ≤ e) : |X * Y - X' * Y'| ≤ 4 * e := by
  have e1 : X * Y - X' * Y' = (X - X') * Y + X * (Y - Y') - (X - X') * (Y - Y') := by ring
  have he0 : 0 ≤ e := (abs_nonneg _).trans h1
  rw [e1]
  calc _ ≤ |X - X'| * |Y| + |X| * |Y - Y'| + |X - X'| * |Y - Y'| := by
        rw [← abs_mul, ← abs_mul, ← abs_mul]
        exact (abs_sub _ _).trans (add_le_add_left (abs_add_le _ _) _)
    _ ≤ e * (3 / 2) + 3 / 2 * e + e * 1 := by
        refine add_le_add (add_le_add ?_ ?_) ?_
        · exact mul_le_mul h1 hY (abs_nonneg _) he0
        · exact mul_le_mul hX h2 (abs_nonneg _) (by norm_num)
        · exact mul_le_mul h1 (h2.trans he) (abs_nonneg _) he0
    _ = 4 * e := by ring

theorem stiff_bound (P : Panel ℝ) (F : ℕ → ℕ → ℝ) (B : ℕ → ℕ → Term ℝ) {nx ny : ℕ}
    (h : Supported P nx ny) {i k j l : ℕ} (α β : ℕ) (hi : i < P.m) (hk : k < P.m) (hj : j < P.n)
    (hl : l < P.n) :
    |stiff P F B (intTab ℝ).get (intTab ℝ).get i k j l α β
      - stiff P F B (ruleGet (scShape ℝ) (gaussTab ℝ) nx) (ruleGet (scShape ℝ) (gaussTab ℝ) ny)
        i k j l α β| ≤ 4 * eps (max P.m P.n) * scale P F B α β := by
  have he : eps (max P.m P.n) ≤ 1 := by unfold eps; split_ifs <;> norm_num
  unfold stiff scale
  rw [← mul_sub, abs_mul, mul_left_comm, ← Finset.sum_sub_distrib]
  refine mul_le_mul_of_nonneg_left ?_ (abs_nonneg _)
  rw [Finset.mul_sum]
  refine (Finset.abs_sum_le_sum_abs _ _).trans (Finset.sum_le_sum fun s _ => ?_)
  rw [Finset.mul_sum, ← Finset.sum_sub_distrib]
  refine (Finset.abs_sum_le_sum_abs _ _).trans (Finset.sum_le_sum fun t _ => ?_)
  rw [← mul_sub, abs_mul, abs_mul, abs_mul, mul_comm (4 * _)]
  refine mul_le_mul_of_nonneg_left (prod_bound he (get_small _ _ _ _ (h.xf α) (h.xf β))
    (get_small _ _ _ _ (h.yf α) (h.yf β)) ?_ ?_) (by positivity)
  · exact (get_rule h.m h.nx.2.1 h.nx.1 h.nx.2.2 hi hk _ _ (h.xf α) (h.xf β)).trans
      (eps_mono (le_max_left _ _))
  · exact (get_rule h.n h.ny.2.1 h.ny.1 h.ny.2.2 hj hl _ _ (h.yf α) (h.yf β)).trans
      (eps_mono (le_max_right _ _))

theorem intTab_sym : (intTab ℝ).Sym where
  ff i j fa fb := (C04.swap_symmetric i j fa fb).1
  fpfp i j fa fb := (C04.swap_symmetric i j fa fb).2.1
  fppfpp i j fa fb := (C04.swap_symmetric i j fa fb).2.2

/-- With the tables, shape functions and quadrature rules of the program, the entries of the two
stiffness matrices of a plate differ by at most `8·10^-15` (up to 15 terms) or `1.6·10^-7` (up to
30 terms) of the scale of the entry. -/
theorem plate_entries_close (P : Panel ℝ) {nx ny : ℕ} (h : Supported P nx ny) (ha : P.a ≠ 0)
    (hb : P.b ≠ 0) (hP : FullDomain P) (F : ℕ → ℕ → ℝ) (hF : ABDSym F) (cs : ℕ → ℝ) (s0 NL : ℕ)
    (hNL : NL ≠ 1) {i k j l α β : ℕ} (hi : i < P.m) (hk : k < P.m) (hj : j < P.n) (hl : l < P.n)
    (hα : α < 3) (hβ : β < 3) :
    ∃ L, plateFkCnum (vecShape ℝ) (gaussTab ℝ) P (.one F) cs s0 s0 nx ny NL = .ok L ∧
      |Coo.entry (Coo.finalizeSym (plateFk0 (intTab ℝ) P F s0 s0))
          (s0 + 3 * (j * P.m + i) + α) (s0 + 3 * (l * P.m + k) + β)
        - Coo.entry (Coo.finalizeSym L)
          (s0 + 3 * (j * P.m + i) + α) (s0 + 3 * (l * P.m + k) + β)|
        ≤ 4 * (if max P.m P.n ≤ 15 then 2 / 10 ^ 15 else 4 / 10 ^ 8)
          * scale P F (plateB P.a P.b) α β := by
  rw [C01.vec_eq_scalar]
  refine ⟨_, rfl, ?_⟩
  have h1 := plate_ana_entry intTab_sym P ha hb F hF s0 hi hk hj hl hα hβ
  have h2 := plate_num_entry (scShape ℝ) (gaussTab ℝ) P ha hb hP F hF cs s0 nx ny NL hNL
    hi hk hj hl hα hβ
  have h3 := stiff_bound P F (plateB P.a P.b) h α β hi hk hj hl
  rw [← h1, ← h2] at h3
  exact h3

/-- The same for the cylinder. -/
theorem cyl_entries_close (P : Panel ℝ) {nx ny : ℕ} (h : Supported P nx ny) (ha : P.a ≠ 0)
    (hb : P.b ≠ 0) (hr : P.r ≠ 0) (hP : FullDomain P) (F : ℕ → ℕ → ℝ) (hF : ABDSym F)
    (cs : ℕ → ℝ) (s0 NL : ℕ) (hNL : NL ≠ 1) {i k j l α β : ℕ} (hi : i < P.m) (hk : k < P.m)
    (hj : j < P.n) (hl : l < P.n) (hα : α < 3) (hβ : β < 3) :
    ∃ L, cylFkCnum (vecShape ℝ) (gaussTab ℝ) P (.one F) cs s0 s0 nx ny NL = .ok L ∧
      |Coo.entry (Coo.finalizeSym (cylFk0 (intTab ℝ) P F s0 s0))
          (s0 + 3 * (j * P.m + i) + α) (s0 + 3 * (l * P.m + k) + β)
        - Coo.entry (Coo.finalizeSym L)
          (s0 + 3 * (j * P.m + i) + α) (s0 + 3 * (l * P.m + k) + β)|
        ≤ 4 * (if max P.m P.n ≤ 15 then 2 / 10 ^ 15 else 4 / 10 ^ 8)
          * scale P F (cylB P.a P.b P.r) α β := by
  rw [C01.vec_eq_scalar]
  refine ⟨_, rfl, ?_⟩
  have h1 := cyl_ana_entry intTab_sym P ha hb hr F hF s0 hi hk hj hl hα hβ
  have h2 := cyl_num_entry (scShape ℝ) (gaussTab ℝ) P ha hb hr hP F hF cs s0 nx ny NL hNL
    hi hk hj hl hα hβ
  have h3 := stiff_bound P F (cylB P.a P.b P.r) h α β hi hk hj hl
  rw [← h1, ← h2] at h3
  exact h3

/-! ## Concrete cases -/

theorem witness_supported : Supported Witness.panel 8 9 where
  m := by simp [Witness.panel]
  n := by simp [Witness.panel]
  nx := by simp [Witness.panel]
  ny := by simp [Witness.panel]
  xf α k := by
    match α with
    | 0 => match k with | 0 | 1 | 2 | 3 | k + 4 => simp [Witness.panel, Panel.xf, Flags.get]
    | 1 => match k with | 0 | 1 | 2 | 3 | k + 4 => simp [Witness.panel, Panel.xf, Flags.get]
    | α + 2 => match k with | 0 | 1 | 2 | 3 | k + 4 => simp [Witness.panel, Panel.xf, Flags.get]
  yf α k := by
    match α with
    | 0 => match k with | 0 | 1 | 2 | 3 | k + 4 => simp [Witness.panel, Panel.yf, Flags.get]
    | 1 => match k with | 0 | 1 | 2 | 3 | k + 4 => simp [Witness.panel, Panel.yf, Flags.get]
    | α + 2 => match k with | 0 | 1 | 2 | 3 | k + 4 => simp [Witness.panel, Panel.yf, Flags.get]

theorem witness_full {K : Type*} [Field K] [DecidableEq K] : FullDomain (Witness.panel : Panel K) := by
  constructor <;> simp [xdom, ydom, Witness.panel]

/-- Row of `w` term (4, 6) against `u` term (2, 1) of a curved panel of 5 × 7 terms. -/
example : ∃ L, cylFkCnum (vecShape ℝ) (gaussTab ℝ) Witness.panel (.one Witness.abd) (fun _ => 0)
      12 12 8 9 0 = .ok L ∧
    |Coo.entry (Coo.finalizeSym (cylFk0 (intTab ℝ) Witness.panel Witness.abd 12 12))
        (12 + 3 * (6 * 5 + 4) + 2) (12 + 3 * (1 * 5 + 2) + 0)
      - Coo.entry (Coo.finalizeSym L) (12 + 3 * (6 * 5 + 4) + 2) (12 + 3 * (1 * 5 + 2) + 0)|
      ≤ 4 * (2 / 10 ^ 15) * scale Witness.panel Witness.abd (cylB 3 1 2) 2 0 := by
  have h := cyl_entries_close Witness.panel witness_supported (by simp [Witness.panel])
    (by simp [Witness.panel]) (by simp [Witness.panel]) witness_full Witness.abd Witness.abd_sym
    (fun _ => 0) 12 0 (by norm_num) (i := 4) (k := 2) (j := 6) (l := 1) (α := 2) (β := 0)
    (by simp [Witness.panel]) (by simp [Witness.panel]) (by simp [Witness.panel])
    (by simp [Witness.panel]) (by norm_num) (by norm_num)
  simpa [Witness.panel] using h

/-- Exact agreement for the quadrature itself as the mean. -/
example (S : Shape ℚ) (G : GaussTab ℚ) :
    let M := Mean.rule ((List.range 8).map fun g => (G.pt 8 g, G.wt 8 g))
    (Tab.of S M).Exact S M ∧ RuleExact S M G 8 5 := by
  intro M
  refine ⟨Tab.of_exact S M, fun p q i k fa fb _ _ => ?_⟩
  simp [M, Mean.rule, Finset.sum_range_succ, List.range_succ]
  ring

end Verif.C10

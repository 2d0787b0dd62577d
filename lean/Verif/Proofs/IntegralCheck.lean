import Verif.Model.Tables
import Verif.Proofs.Bardell

/-!
# Checker of the integral tables and its soundness
-/

namespace Verif.IntCheck

open Model Spec

/-- `[∫ x^k q, ∫ x^(k+1) q, …]`, `n` entries. -/
def vmom (q : List ℚ) : ℕ → ℕ → List ℚ
  | 0, _ => []
  | n + 1, k => pintFrom k q :: vmom q n (k + 1)

def dot : List ℚ → List ℚ → ℚ
  | a :: p, b :: q => a * b + dot p q
  | _, _ => 0

/-- Entry `(i, j)` of table `T` is within `10^-15` of the integral of `p` against the function
with moments `v`, and carries the right flags. -/
def chk (T : List (List Gen.IEntry)) (p : List ℚ) (i j : ℕ) (v : List ℚ) : Bool :=
  let I := dot p v
  Nat.ble p.length 30 &&
  match findEntry T i j with
  | some e => decide (|dec e.z e.e - I| ≤ 1 / 10 ^ 15) && (e.fx == min i 4) && (e.fy == min j 4)
  | none => decide (|I| ≤ 1 / 10 ^ 15)

def chkAll (T : List (List Gen.IEntry)) (a b : ℕ → List ℚ) : Bool :=
  (List.range 30).all fun j =>
    let v := vmom (b j) 30 0
    (List.range 30).all fun i => chk T (a i) i j v

theorem pintFrom_padd (p q : List ℚ) : ∀ k,
    pintFrom k (padd p q) = pintFrom k p + pintFrom k q := by
  induction p generalizing q with
  | nil => intro k; simp [padd, pintFrom]
  | cons a p ih =>
    intro k
    cases q with
    | nil => simp [padd, pintFrom]
    | cons b q => simp only [padd, pintFrom, ih]; ring

theorem pintFrom_psmul (a : ℚ) (p : List ℚ) : ∀ k,
    pintFrom k (psmul a p) = a * pintFrom k p := by
  induction p with
  | nil => intro k; simp [psmul, pintFrom]
  | cons b p ih =>
    intro k
    simp only [psmul, List.map_cons, pintFrom] at ih ⊢
    rw [ih]; ring

theorem dot_vmom (q : List ℚ) (p : List ℚ) : ∀ (n k : ℕ), p.length ≤ n →
    dot p (vmom q n k) = pintFrom k (pmul p q) := by
  induction p with
  | nil => intro n k _; cases n <;> rfl
  | cons a p ih =>
    intro n k h
    match n with
    | 0 => simp at h
    | n + 1 =>
      simp only [vmom, dot, pmul, pintFrom_padd, pintFrom_psmul, pintFrom]
      rw [ih n (k + 1) (by simpa using h)]
      ring

theorem integral_mul (p q : List ℚ) :
    ∫ x in (-1 : ℝ)..1, pev p x * pev q x = ((pint (pmul p q) : ℚ) : ℝ) := by
  rw [← integral_pev]
  simp only [pev_pmul]

theorem get_min (fl : Flags ℝ) (i : ℕ) : fl.get (min i 4) = flag fl i := by
  match i with
  | 0 => rfl
  | 1 => rfl
  | 2 => rfl
  | 3 => rfl
  | n + 4 =>
    have : min (n + 4) 4 = 4 := by omega
    rw [this]; rfl

theorem chkAll_sound {T : List (List Gen.IEntry)} {a b : ℕ → List ℚ} (h : chkAll T a b = true)
    (i j : ℕ) (hi : i < 30) (hj : j < 30) (fa fb : Flags ℝ) :
    |intVal T i j fa fb - ∫ x in (-1 : ℝ)..1, (flag fa i * pev (a i) x) * (flag fb j * pev (b j) x)|
      ≤ 1 / 10 ^ 15 * (|flag fa i| * |flag fb j|) := by
  rw [chkAll, List.all_eq_true] at h
  have h1 := h j (List.mem_range.2 hj)
  simp only [List.all_eq_true] at h1
  have h2 := h1 i (List.mem_range.2 hi)
  rw [chk, Bool.and_eq_true] at h2
  have hI := dot_vmom (b j) (a i) 30 0 (Nat.le_of_ble_eq_true h2.1)
  have e : ∫ x in (-1 : ℝ)..1, (flag fa i * pev (a i) x) * (flag fb j * pev (b j) x)
      = flag fa i * flag fb j * ((dot (a i) (vmom (b j) 30 0) : ℚ) : ℝ) := by
    rw [hI, ← pint, ← integral_mul, ← intervalIntegral.integral_const_mul]
    congr 1; funext x; ring
  rw [e]
  generalize dot (a i) (vmom (b j) 30 0) = I at *
  have h3 := h2.2
  have key : ∀ z : ℚ, |z - I| ≤ 1 / 10 ^ 15 →
      |(z : ℝ) * flag fa i * flag fb j - flag fa i * flag fb j * (I : ℝ)|
        ≤ 1 / 10 ^ 15 * (|flag fa i| * |flag fb j|) := by
    intro z hz
    have e1 : (z : ℝ) * flag fa i * flag fb j - flag fa i * flag fb j * (I : ℝ)
        = ((z - I : ℚ) : ℝ) * (flag fa i * flag fb j) := by push_cast; ring
    rw [e1, abs_mul, abs_mul]
    refine mul_le_mul_of_nonneg_right ?_ (by positivity)
    have := (Rat.cast_le (K := ℝ)).2 hz
    rw [Rat.cast_abs] at this
    refine this.trans (le_of_eq ?_)
    push_cast; rfl
  rcases hf : findEntry T i j with _ | e
  · rw [hf] at h3
    have h4 : |I| ≤ 1 / 10 ^ 15 := by simpa using h3
    have := key 0 (by rw [zero_sub, abs_neg]; exact h4)
    rw [Rat.cast_zero, zero_mul, zero_mul] at this
    simpa only [intVal, hf] using this
  · rw [hf] at h3
    simp only [Bool.and_eq_true, decide_eq_true_eq, beq_iff_eq] at h3
    have := key _ h3.1.1
    simpa only [intVal, hf, h3.1.2, h3.2, get_min] using this

end Verif.IntCheck

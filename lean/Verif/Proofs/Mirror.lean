import Verif.Spec.Mirror
import Verif.Spec.Bardell
import Verif.Model.Tables
import Verif.Proofs.Nest
import Mathlib.Data.Real.Basic
import Mathlib.Tactic.IntervalCases
import Mathlib.Tactic.LinearCombination
import Mathlib.Tactic.NormNum

/-!
# Mirrored functions and fields
-/

set_option linter.unusedSectionVars false

namespace Verif

open Finset Spec Model

variable {K : Type*} [Field K]

/-! ## Functions -/

/-- The functions and their derivatives at the mirrored point. -/
def Shape.Even (S : Shape K) : Prop :=
  ∀ p ≤ 2, ∀ i x fl, S.D p i (-x) fl = (-1) ^ (i + p) * S.D p (twin true i) x (turnFlags true fl)

theorem flag_turn (fl : Flags K) (i : ℕ) : flag (turnFlags true fl) (twin true i) = flag fl i := by
  match i with
  | 0 => rfl
  | 1 => rfl
  | 2 => rfl
  | 3 => rfl
  | i + 4 => rfl

/-- Only coefficients of one parity (`b`: that of the first one). -/
def OneParity : Bool → List ℚ → Prop
  | _, [] => True
  | b, c :: cs => (b = false → c = 0) ∧ OneParity (!b) cs

theorem pev_neg [CharZero K] : ∀ (l : List ℚ) (b : Bool), OneParity b l → ∀ x : K,
    pev l (-x) = (if b then 1 else -1) * pev l x
  | [], b, _, x => by simp [pev]
  | c :: cs, true, h, x => by
    have := pev_neg cs false h.2 x
    simp only [pev, this]
    simp
  | c :: cs, false, h, x => by
    have := pev_neg cs true h.2 x
    simp only [pev, this, h.1 rfl]
    simp

theorem oneParity_pderFrom : ∀ (l : List ℚ) (k : ℕ) (b : Bool), OneParity b l →
    OneParity b (pderFrom k l)
  | [], _, _, _ => trivial
  | c :: cs, k, b, h => ⟨fun hb => by rw [h.1 hb, mul_zero], oneParity_pderFrom cs (k + 1) (!b) h.2⟩

theorem oneParity_pder {l : List ℚ} {b : Bool} (h : OneParity b l) : OneParity (!b) (pder l) := by
  match l, h with
  | [], _ => trivial
  | c :: cs, h => exact oneParity_pderFrom cs 0 (!b) h.2

theorem oneParity_map (f : ℕ → ℚ) : ∀ (n s : ℕ) (b : Bool),
    (∀ k, s ≤ k → k < s + n → ((k - s) % 2 = 1 ↔ b = true) → f k = 0) →
    OneParity b ((List.range' s n).map f)
  | 0, _, _, _ => trivial
  | n + 1, s, b, h => by
    rw [List.range'_succ, List.map_cons]
    refine ⟨fun hb => h s le_rfl (by omega) (by simp [hb]), oneParity_map f n (s + 1) (!b) fun k h1 h2 h3 => ?_⟩
    refine h k (by omega) (by omega) ?_
    have e : (k - s) % 2 = 1 ↔ ¬ (k - (s + 1)) % 2 = 1 := by omega
    rw [e, h3]
    cases b <;> simp

theorem oneParity_bardell {i : ℕ} (hi : 4 ≤ i) : OneParity (decide (i % 2 = 0)) (bardell i) := by
  obtain ⟨n, rfl⟩ : ∃ n, i = n + 4 := ⟨i - 4, by omega⟩
  show OneParity _ ((List.range (n + 4 + 1)).map (bcoef (n + 4)))
  rw [List.range_eq_range']
  refine oneParity_map _ _ _ _ fun k _ hk h => ?_
  have : (n + 4 - k) % 2 ≠ 0 := by
    rw [decide_eq_true_iff] at h
    omega
  rw [bcoef, if_neg this]

theorem parity_sign (b : Bool) (i : ℕ) (h : b = decide (i % 2 = 0)) :
    (if b then 1 else -1 : K) = (-1) ^ i := by
  subst h
  rcases Nat.mod_two_eq_zero_or_one i with h | h
  · rw [Even.neg_one_pow (Nat.even_iff.2 h)]
    simp [h]
  · rw [Odd.neg_one_pow (Nat.odd_iff.2 h)]
    simp [h]

/-- The exact functions. -/
theorem bardellShape_even [CharZero K] : (bardellShape K).Even := by
  intro p hp i x fl
  by_cases hi : 4 ≤ i
  · have h0 := oneParity_bardell hi
    have ht : twin true i = i := by
      obtain ⟨n, rfl⟩ : ∃ n, i = n + 4 := ⟨i - 4, by omega⟩
      rfl
    have hf : flag (turnFlags true fl) i = flag fl i := by
      have := flag_turn fl i
      rwa [ht] at this
    have e1 : (!decide (i % 2 = 0)) = decide ((i + 1) % 2 = 0) := by
      rcases Nat.mod_two_eq_zero_or_one i with h | h
      · rw [decide_eq_true h, decide_eq_false (by omega)]; rfl
      · rw [decide_eq_false (by omega), decide_eq_true (by omega)]; rfl
    have e2 : (!!decide (i % 2 = 0)) = decide ((i + 2) % 2 = 0) := by
      rw [Bool.not_not]
      congr 1
      simp
    rw [ht]
    interval_cases p
    · simp only [Shape.D, bardellShape]
      rw [pev_neg _ _ h0, hf, parity_sign _ i rfl]
      ring
    · simp only [Shape.D, bardellShape]
      rw [pev_neg _ _ (oneParity_pder h0), hf, parity_sign _ (i + 1) e1]
      ring
    · simp only [Shape.D, bardellShape]
      rw [pev_neg _ _ (oneParity_pder (oneParity_pder h0)), hf, parity_sign _ (i + 2) e2]
      ring
  · have hi : i < 4 := by omega
    have hf := flag_turn fl i
    interval_cases p <;> interval_cases i <;>
      simp only [Shape.D, bardellShape, hf] <;>
      simp only [twin, if_true, bardell, pev, pder, pderFrom] <;> push_cast <;> ring

/-- Row `i` of a table of derivatives of order `p` matches the mirrored row. -/
def rowEven (p i : ℕ) (r r' : Gen.FRow) : Bool :=
  r'.fl == twin true r.fl && r'.coef == r.coef.map fun t => (t.1, (-1) ^ (i + p + t.1) * t.2.1, t.2.2)

/-- All rows of a table. -/
def tabEven (p : ℕ) (T : List Gen.FRow) : Bool :=
  (List.range T.length).all fun i => match T[i]?, T[twin true i]? with
    | some r, some r' => rowEven p i r r'
    | _, _ => false

theorem tabVal_even [CharZero K] {p : ℕ} {T : List Gen.FRow} (h : tabEven p T = true) (h4 : 4 ≤ T.length) (i : ℕ)
    (x : K) (fl : Flags K) :
    tabVal T i (-x) fl = (-1) ^ (i + p) * tabVal T (twin true i) x (turnFlags true fl) := by
  by_cases hi : i < T.length
  · have hr := List.all_eq_true.1 h i (List.mem_range.2 hi)
    unfold tabVal
    generalize T[i]? = o at hr ⊢
    generalize T[twin true i]? = o' at hr ⊢
    match o, o', hr with
    | some r, some r', hr =>
      simp only [rowEven, Bool.and_eq_true, beq_iff_eq] at hr
      simp only [rowVal]
      have e1 : (turnFlags true fl).get r'.fl = fl.get r.fl := by rw [hr.1]; exact flag_turn fl r.fl
      rw [e1, hr.2, List.map_map, mul_left_comm]
      refine congrArg (fl.get r.fl * ·) ?_
      rw [← List.sum_map_mul_left]
      refine congrArg List.sum (List.map_congr_left fun t _ => ?_)
      have e2 : ((-1 : K) ^ (i + p)) * (-1) ^ (i + p) = 1 := by
        rw [← mul_pow]; norm_num
      simp only [Function.comp, dec]
      push_cast
      rw [neg_pow x, pow_add _ (i + p)]
      linear_combination (-(-1 : K) ^ t.1 * ((t.2.1 : K) / 10 ^ t.2.2) * x ^ t.1) * e2
  · have ht : twin true i = i := by
      obtain ⟨n, rfl⟩ : ∃ n, i = n + 4 := ⟨i - 4, by omega⟩
      rfl
    have : T[i]? = none := List.getElem?_eq_none (by omega)
    rw [ht]
    simp only [tabVal, this, mul_zero]

theorem vec_tables_even : tabEven 0 Gen.vec_f = true ∧ tabEven 1 Gen.vec_fp = true ∧
    tabEven 2 Gen.vec_fpp = true ∧ 4 ≤ Gen.vec_f.length ∧ 4 ≤ Gen.vec_fp.length ∧
    4 ≤ Gen.vec_fpp.length := by decide +kernel

/-- The functions of the tables in the code, all printed digits. -/
theorem vecShape_even [CharZero K] : (vecShape K).Even := by
  obtain ⟨h0, h1, h2, l0, l1, l2⟩ := vec_tables_even
  intro p hp i x fl
  interval_cases p
  · exact tabVal_even h0 l0 i x fl
  · exact tabVal_even h1 l1 i x fl
  · exact tabVal_even h2 l2 i x fl

theorem sc_tables_even : tabEven 0 Gen.sc_f = true ∧ tabEven 1 Gen.sc_fp = true ∧
    tabEven 2 Gen.sc_fpp = true ∧ 4 ≤ Gen.sc_f.length ∧ 4 ≤ Gen.sc_fp.length ∧
    4 ≤ Gen.sc_fpp.length := by decide +kernel

theorem scShape_even [CharZero K] : (scShape K).Even := by
  obtain ⟨h0, h1, h2, l0, l1, l2⟩ := sc_tables_even
  intro p hp i x fl
  interval_cases p
  · exact tabVal_even h0 l0 i x fl
  · exact tabVal_even h1 l1 i x fl
  · exact tabVal_even h2 l2 i x fl

theorem Shape.Even.at {S : Shape K} (h : S.Even) (b : Bool) {p : ℕ} (hp : p ≤ 2) (i : ℕ) (x : K)
    (fl : Flags K) :
    S.D p i (sgn b * x) (turnFlags b fl) = sgn b ^ i * sgn b ^ p * S.D p (twin b i) x fl := by
  cases b
  · simp [sgn, turnFlags, twin]
  · have := h p hp i x (turnFlags true fl)
    have e : turnFlags true (turnFlags true fl) = fl := rfl
    rw [e] at this
    simp only [sgn, if_true, neg_one_mul, this, pow_add]

/-! ## Numbers -/

theorem twin_twin (b : Bool) (i : ℕ) : twin b (twin b i) = i := by
  cases b
  · rfl
  · match i with
    | 0 => rfl
    | 1 => rfl
    | 2 => rfl
    | 3 => rfl
    | i + 4 => rfl

theorem twin_lt {b : Bool} {i m : ℕ} (hm : b = true → 4 ≤ m) (hi : i < m) : twin b i < m := by
  cases b
  · exact hi
  · have := hm rfl
    match i with
    | 0 => exact (by omega : 2 < m)
    | 1 => exact (by omega : 3 < m)
    | 2 => exact (by omega : 0 < m)
    | 3 => exact (by omega : 1 < m)
    | i + 4 => exact hi

theorem sgn_sq (b : Bool) : (sgn b : K) * sgn b = 1 := by
  cases b <;> simp [sgn]

theorem sgn_pow_twin (b : Bool) (i : ℕ) : (sgn b : K) ^ twin b i = sgn b ^ i := by
  cases b
  · rfl
  · match i with
    | 0 => simp [sgn, twin]
    | 1 => simp [sgn, twin]; norm_num
    | 2 => simp [sgn, twin]
    | 3 => simp [sgn, twin]; norm_num
    | i + 4 => rfl

theorem split_number {m s i j α : ℕ} (hi : i < m) (hα : α < 3) :
    (s + 3 * (j * m + i) + α - s) % 3 = α ∧ (s + 3 * (j * m + i) + α - s) / 3 % m = i ∧
      (s + 3 * (j * m + i) + α - s) / 3 / m = j := by
  have e : (s + 3 * (j * m + i) + α - s) / 3 = j * m + i := by omega
  refine ⟨by omega, ?_, ?_⟩
  · rw [e, Nat.mul_add_mod', Nat.mod_eq_of_lt hi]
  · rw [e, mul_comm, Nat.mul_add_div (by omega), Nat.div_eq_of_lt hi, add_zero]

section
variable (X Y : Bool) {m n s i j α : ℕ}

theorem twinNo_number (hi : i < m) (hj : j < n) (hα : α < 3) :
    twinNo X Y m n s (s + 3 * (j * m + i) + α) = s + 3 * (twin Y j * m + twin X i) + α := by
  obtain ⟨h1, h2, h3⟩ := split_number (s := s) (j := j) hi hα
  rw [twinNo, if_pos ⟨by omega, number_lt hi hj hα⟩, h1, h2, h3]

theorem signNo_number (hi : i < m) (hj : j < n) (hα : α < 3) :
    (signNo X Y m n s (s + 3 * (j * m + i) + α) : K) = uSign X Y α * sgn X ^ i * sgn Y ^ j := by
  obtain ⟨h1, h2, h3⟩ := split_number (s := s) (j := j) hi hα
  rw [signNo, if_pos ⟨by omega, number_lt hi hj hα⟩, h1, h2, h3]

theorem uSign_sq (α : ℕ) : (uSign X Y α : K) * uSign X Y α = 1 := by
  match α with
  | 0 => exact sgn_sq X
  | 1 => exact sgn_sq Y
  | α + 2 => exact one_mul 1

variable (hm : X = true → 4 ≤ m) (hn : Y = true → 4 ≤ n)
include hm hn

theorem twinNo_twinNo (k : ℕ) : twinNo X Y m n s (twinNo X Y m n s k) = k := by
  by_cases hk : s ≤ k ∧ k < s + 3 * (m * n)
  · obtain ⟨i, hi, j, hj, α, hα, rfl⟩ := exists_number (Finset.mem_Ico.2 hk)
    unfold number
    rw [twinNo_number X Y hi hj hα, twinNo_number X Y (twin_lt hm hi) (twin_lt hn hj) hα, twin_twin, twin_twin]
  · have e : twinNo X Y m n s k = k := if_neg hk
    rw [e, e]

theorem signNo_sq (k : ℕ) : (signNo X Y m n s k : K) * signNo X Y m n s k = 1 := by
  by_cases hk : s ≤ k ∧ k < s + 3 * (m * n)
  · obtain ⟨i, hi, j, hj, α, hα, rfl⟩ := exists_number (Finset.mem_Ico.2 hk)
    unfold number
    rw [signNo_number X Y hi hj hα]
    have h1 := uSign_sq (K := K) X Y α
    have h2 : ((sgn X : K) ^ i) * sgn X ^ i = 1 := by rw [← mul_pow, sgn_sq, one_pow]
    have h3 : ((sgn Y : K) ^ j) * sgn Y ^ j = 1 := by rw [← mul_pow, sgn_sq, one_pow]
    calc _ = ((uSign X Y α : K) * uSign X Y α) * ((sgn X : K) ^ i * sgn X ^ i)
          * ((sgn Y : K) ^ j * sgn Y ^ j) := by ring
      _ = 1 := by rw [h1, h2, h3]; ring
  · have e : (signNo X Y m n s k : K) = 1 := if_neg hk
    rw [e, one_mul]

theorem signNo_twinNo (k : ℕ) : (signNo X Y m n s (twinNo X Y m n s k) : K) = signNo X Y m n s k := by
  by_cases hk : s ≤ k ∧ k < s + 3 * (m * n)
  · obtain ⟨i, hi, j, hj, α, hα, rfl⟩ := exists_number (Finset.mem_Ico.2 hk)
    unfold number
    rw [twinNo_number X Y hi hj hα, signNo_number X Y hi hj hα,
      signNo_number X Y (twin_lt hm hi) (twin_lt hn hj) hα, sgn_pow_twin, sgn_pow_twin]
  · have e : twinNo X Y m n s k = k := if_neg hk
    rw [e]

/-- Mirrored twice. -/
theorem turn_turn (c : ℕ → K) : turn X Y m n s (turn X Y m n s c) = c := by
  funext k
  unfold turn
  rw [signNo_twinNo X Y hm hn, twinNo_twinNo X Y hm hn, ← mul_assoc, signNo_sq X Y hm hn, one_mul]

end

/-! ## Fields -/

theorem sum_twin {M : Type*} [AddCommMonoid M] {b : Bool} {m : ℕ} (hm : b = true → 4 ≤ m) (g : ℕ → M) :
    ∑ i ∈ range m, g (twin b i) = ∑ i ∈ range m, g i :=
  Finset.sum_nbij' (twin b) (twin b) (fun _ hi => mem_range.2 (twin_lt hm (mem_range.1 hi)))
    (fun _ hi => mem_range.2 (twin_lt hm (mem_range.1 hi))) (fun i _ => twin_twin b i)
    (fun i _ => twin_twin b i) fun _ _ => rfl

section
variable [DecidableEq K] {S : Shape K} {X Y : Bool} {P P' : Panel K}

/-- The mirrored amplitudes give the mirrored displacements and derivatives. -/
theorem disp_turn (hS : S.Even) (h : Turned X Y P P') (hm : X = true → 4 ≤ P.m) (hn : Y = true → 4 ≤ P.n)
    (s : ℕ) (c : ℕ → K) {α : ℕ} (hα : α < 3) {p q : ℕ} (hp : p ≤ 2) (hq : q ≤ 2) (ξ η : K) :
    disp S P' s (turn X Y P.m P.n s c) α p q (sgn X * ξ) (sgn Y * η)
      = uSign X Y α * sgn X ^ p * sgn Y ^ q * disp S P s c α p q ξ η := by
  unfold disp
  rw [h.m, h.n, h.a, h.b, h.xf, h.yf]
  have e : ∀ i ∈ range P.m, ∀ j ∈ range P.n,
      turn X Y P.m P.n s c (s + 3 * (j * P.m + i) + α) *
        (S.D p i (sgn X * ξ) (turnFlags X (P.xf α)) * S.D q j (sgn Y * η) (turnFlags Y (P.yf α)))
      = uSign X Y α * sgn X ^ p * sgn Y ^ q * (c (s + 3 * (twin Y j * P.m + twin X i) + α) *
        (S.D p (twin X i) ξ (P.xf α) * S.D q (twin Y j) η (P.yf α))) := by
    intro i hi j hj
    have hi := mem_range.1 hi
    have hj := mem_range.1 hj
    rw [turn, signNo_number X Y hi hj hα, twinNo_number X Y hi hj hα, hS.at X hp, hS.at Y hq]
    have h2 : ((sgn X : K) ^ i) * sgn X ^ i = 1 := by rw [← mul_pow, sgn_sq, one_pow]
    have h3 : ((sgn Y : K) ^ j) * sgn Y ^ j = 1 := by rw [← mul_pow, sgn_sq, one_pow]
    generalize S.D p (twin X i) ξ (P.xf α) = a
    generalize S.D q (twin Y j) η (P.yf α) = b
    generalize c (s + 3 * (twin Y j * P.m + twin X i) + α) = d
    calc _ = ((sgn X : K) ^ i * sgn X ^ i) * ((sgn Y : K) ^ j * sgn Y ^ j) *
          (uSign X Y α * sgn X ^ p * sgn Y ^ q * (d * (a * b))) := by ring
      _ = _ := by rw [h2, h3]; ring
  rw [Finset.sum_congr rfl fun i hi => Finset.sum_congr rfl fun j hj => e i hi j hj]
  have e2 := sum_twin (b := X) hm fun i => ∑ j ∈ range P.n, c (s + 3 * (j * P.m + i) + α) *
    (S.D p i ξ (P.xf α) * S.D q j η (P.yf α))
  have e3 : ∀ i, ∑ j ∈ range P.n, c (s + 3 * (twin Y j * P.m + i) + α) *
      (S.D p i ξ (P.xf α) * S.D q (twin Y j) η (P.yf α)) = ∑ j ∈ range P.n, c (s + 3 * (j * P.m + i) + α) *
      (S.D p i ξ (P.xf α) * S.D q j η (P.yf α)) := fun i =>
    sum_twin (b := Y) hn fun j => c (s + 3 * (j * P.m + i) + α) * (S.D p i ξ (P.xf α) * S.D q j η (P.yf α))
  simp only [← Finset.mul_sum, e3, e2]
  ring

theorem across_unit (b : Bool) {len : K} (hl : len ≠ 0) (x : K) :
    2 / len * across b len x - 1 = sgn b * (2 / len * x - 1) := by
  cases b
  · simp [across, sgn]
  · simp only [across, sgn, if_true]
    field_simp
    ring

/-- At physical points. -/
theorem disp_across (hS : S.Even) (h : Turned X Y P P') (hm : X = true → 4 ≤ P.m) (hn : Y = true → 4 ≤ P.n)
    (ha : P.a ≠ 0) (hb : P.b ≠ 0)
    (s : ℕ) (c : ℕ → K) {α : ℕ} (hα : α < 3) {p q : ℕ} (hp : p ≤ 2) (hq : q ≤ 2) (x y : K) :
    disp S P' s (turn X Y P.m P.n s c) α p q (2 / P'.a * across X P.a x - 1) (2 / P'.b * across Y P.b y - 1)
      = uSign X Y α * sgn X ^ p * sgn Y ^ q * disp S P s c α p q (2 / P.a * x - 1) (2 / P.b * y - 1) := by
  rw [h.a, h.b, across_unit X ha, across_unit Y hb]
  exact disp_turn hS h hm hn s c hα hp hq _ _

/-- The strains of the mirrored amplitudes. -/
theorem lin_across (hS : S.Even) (h : Turned X Y P P') (hm : X = true → 4 ≤ P.m) (hn : Y = true → 4 ≤ P.n)
    (ha : P.a ≠ 0) (hb : P.b ≠ 0) (κ : K) (s0 : ℕ) (c : ℕ → K) {s : ℕ} (hs : s < 6) (x y : K) :
    lin κ S P' s0 (turn X Y P.m P.n s0 c) s (across X P.a x) (across Y P.b y)
      = eSign X Y s * lin κ S P s0 c s x y := by
  have hd := fun {α p q} (hα : α < 3) (hp : p ≤ 2) (hq : q ≤ 2) =>
    disp_across hS h hm hn ha hb s0 c (α := α) (p := p) (q := q) hα hp hq x y
  have h1 := sgn_sq (K := K) X
  have h2 := sgn_sq (K := K) Y
  interval_cases s <;> simp only [lin] <;>
    simp only [hd (α := 0) (p := 1) (q := 0) (by omega) (by omega) (by omega),
      hd (α := 1) (p := 0) (q := 1) (by omega) (by omega) (by omega),
      hd (α := 2) (p := 0) (q := 0) (by omega) (by omega) (by omega),
      hd (α := 0) (p := 0) (q := 1) (by omega) (by omega) (by omega),
      hd (α := 1) (p := 1) (q := 0) (by omega) (by omega) (by omega),
      hd (α := 2) (p := 2) (q := 0) (by omega) (by omega) (by omega),
      hd (α := 2) (p := 0) (q := 2) (by omega) (by omega) (by omega),
      hd (α := 2) (p := 1) (q := 1) (by omega) (by omega) (by omega), uSign, eSign, pow_two, pow_one,
      pow_zero, mul_one, one_mul, h1, h2] <;> ring

/-- The slope products. -/
theorem slopes_across (hS : S.Even) (h : Turned X Y P P') (hm : X = true → 4 ≤ P.m) (hn : Y = true → 4 ≤ P.n)
    (ha : P.a ≠ 0) (hb : P.b ≠ 0) (κ : K) (s0 : ℕ) (c d : ℕ → K) {s : ℕ} (hs : s < 6) (x y : K) :
    vkVar κ S P' s0 (turn X Y P.m P.n s0 c) (turn X Y P.m P.n s0 d) s (across X P.a x) (across Y P.b y)
      = eSign X Y s * vkVar κ S P s0 c d s x y := by
  have hd := fun (c : ℕ → K) {p q} (hp : p ≤ 2) (hq : q ≤ 2) =>
    disp_across hS h hm hn ha hb s0 c (α := 2) (p := p) (q := q) (by omega) hp hq x y
  have hl := lin_across hS h hm hn ha hb κ s0 d hs x y
  have h1 := sgn_sq (K := K) X
  have h2 := sgn_sq (K := K) Y
  unfold vkVar
  rw [hl, mul_add]
  interval_cases s <;>
    simp only [hd _ (p := 1) (q := 0) (by omega) (by omega), hd _ (p := 0) (q := 1) (by omega) (by omega),
      uSign, eSign, pow_one, pow_zero, mul_one, one_mul, mul_zero]
  · linear_combination (disp S P s0 c 2 1 0 (2 / P.a * x - 1) (2 / P.b * y - 1) *
      disp S P s0 d 2 1 0 (2 / P.a * x - 1) (2 / P.b * y - 1)) * h1
  · linear_combination (disp S P s0 c 2 0 1 (2 / P.a * x - 1) (2 / P.b * y - 1) *
      disp S P s0 d 2 0 1 (2 / P.a * x - 1) (2 / P.b * y - 1)) * h2
  · ring

theorem vkWith_across (hS : S.Even) (h : Turned X Y P P') (hm : X = true → 4 ≤ P.m) (hn : Y = true → 4 ≤ P.n)
    (ha : P.a ≠ 0) (hb : P.b ≠ 0) (g κ : K) (s0 : ℕ) (c : ℕ → K) {s : ℕ} (hs : s < 6) (x y : K) :
    vkWith g κ S P' s0 (turn X Y P.m P.n s0 c) s (across X P.a x) (across Y P.b y)
      = eSign X Y s * vkWith g κ S P s0 c s x y := by
  have hd := fun (c : ℕ → K) {p q} (hp : p ≤ 2) (hq : q ≤ 2) =>
    disp_across hS h hm hn ha hb s0 c (α := 2) (p := p) (q := q) (by omega) hp hq x y
  have hl := lin_across hS h hm hn ha hb κ s0 c hs x y
  have h1 := sgn_sq (K := K) X
  have h2 := sgn_sq (K := K) Y
  unfold vkWith
  rw [hl, mul_add]
  interval_cases s <;>
    simp only [hd _ (p := 1) (q := 0) (by omega) (by omega), hd _ (p := 0) (q := 1) (by omega) (by omega),
      uSign, eSign, pow_one, pow_zero, mul_one, one_mul, mul_zero]
  · linear_combination (1 / 2 * disp S P s0 c 2 1 0 (2 / P.a * x - 1) (2 / P.b * y - 1) ^ 2) * h1
  · linear_combination (1 / 2 * disp S P s0 c 2 0 1 (2 / P.a * x - 1) (2 / P.b * y - 1) ^ 2) * h2
  · ring

end

/-! ## Laminate, quadrature -/

theorem eSign_sq (X Y : Bool) (s : ℕ) : (eSign X Y s : K) * eSign X Y s = 1 := by
  have : (sgn X * sgn Y : K) * (sgn X * sgn Y) = 1 := by
    calc _ = ((sgn X : K) * sgn X) * (sgn Y * sgn Y) := by ring
      _ = 1 := by rw [sgn_sq, sgn_sq, one_mul]
  unfold eSign
  split
  · exact this
  · exact this
  · exact one_mul 1

theorem turnLam_sym {F : ℕ → ℕ → K} (hF : ABDSym F) (X Y : Bool) : ABDSym (turnLam X Y F) := by
  refine ⟨fun s t => ?_, ?_, ?_, ?_⟩
  · simp only [turnLam, hF.symm s t]; ring
  · simp only [turnLam, hF.b12, eSign]
  · simp only [turnLam, hF.b16, eSign]; ring
  · simp only [turnLam, hF.b26, eSign]; ring

theorem dens_turn (X Y : Bool) (F : ℕ → ℕ → K) {e e' : ℕ → K} (h : ∀ s < 6, e' s = eSign X Y s * e s) :
    dens 6 (turnLam X Y F) e' = dens 6 F e := by
  unfold dens
  refine Finset.sum_congr rfl fun s hs => Finset.sum_congr rfl fun t ht => ?_
  rw [h s (mem_range.1 hs), h t (mem_range.1 ht), turnLam]
  have h1 := eSign_sq (K := K) X Y s
  have h2 := eSign_sq (K := K) X Y t
  calc _ = ((eSign X Y s : K) * eSign X Y s) * (eSign X Y t * eSign X Y t) * (F s t * e s * e t) := by ring
    _ = _ := by rw [h1, h2]; ring

theorem resultant_turn (X Y : Bool) (F : ℕ → ℕ → K) {e e' : ℕ → K} (h : ∀ s < 6, e' s = eSign X Y s * e s)
    (s : ℕ) : resultant (turnLam X Y F) e' s = eSign X Y s * resultant F e s := by
  unfold resultant
  rw [Finset.mul_sum]
  refine Finset.sum_congr rfl fun t ht => ?_
  rw [h t (mem_range.1 ht), turnLam]
  have h2 := eSign_sq (K := K) X Y t
  calc _ = eSign X Y s * (eSign X Y t * eSign X Y t) * (F s t * e t) := by ring
    _ = _ := by rw [h2]; ring

/-- Points and weights are symmetric. -/
def GaussTab.Even (G : GaussTab K) (n : ℕ) : Prop :=
  ∀ i < n, G.pt n (n - 1 - i) = - G.pt n i ∧ G.wt n (n - 1 - i) = G.wt n i

theorem back_lt {b : Bool} {n p : ℕ} (hp : p < n) : back b n p < n := by
  cases b
  · exact hp
  · exact (by omega : n - 1 - p < n)

theorem back_back {b : Bool} {n p : ℕ} (hp : p < n) : back b n (back b n p) = p := by
  cases b
  · rfl
  · exact (by omega : n - 1 - (n - 1 - p) = p)

theorem sum_back {M : Type*} [AddCommMonoid M] (b : Bool) (n : ℕ) (g : ℕ → M) :
    ∑ p ∈ range n, g (back b n p) = ∑ p ∈ range n, g p :=
  Finset.sum_nbij' (back b n) (back b n) (fun _ hi => mem_range.2 (back_lt (mem_range.1 hi)))
    (fun _ hi => mem_range.2 (back_lt (mem_range.1 hi))) (fun _ hi => back_back (mem_range.1 hi))
    (fun i hi => back_back (mem_range.1 hi)) fun _ _ => rfl

theorem wt_back {G : GaussTab K} {b : Bool} {n : ℕ} (hG : b = true → G.Even n) {p : ℕ} (hp : p < n) :
    G.wt n (back b n p) = G.wt n p := by
  cases b
  · rfl
  · exact (hG rfl p hp).2

theorem pt_back {G : GaussTab K} {b : Bool} {n : ℕ} (hG : b = true → G.Even n) {p : ℕ} (hp : p < n) :
    G.pt n (back b n p) = sgn b * G.pt n p := by
  cases b
  · simp [back, sgn]
  · simpa [sgn, back] using (hG rfl p hp).1

theorem node_back {G : GaussTab K} {b : Bool} {n : ℕ} (hG : b = true → G.Even n) [CharZero K] {p : ℕ} (hp : p < n)
    (len lo hi : K) :
    node G n (if b then (len - hi, len - lo) else (lo, hi)).1
      (if b then (len - hi, len - lo) else (lo, hi)).2 (back b n p) = across b len (node G n lo hi p) := by
  unfold node
  rw [pt_back hG hp]
  cases b
  · simp [sgn, across]
  · simp only [sgn, across, if_true]
    ring

section
variable [DecidableEq K] [CharZero K] {X Y : Bool} {P P' : Panel K}

/-- The rule over the mirrored domain of the mirrored integrand. -/
theorem gaussP_turn (h : Turned X Y P P') {G : GaussTab K} {nx ny : ℕ} (hx : X = true → G.Even nx)
    (hy : Y = true → G.Even ny) {g g' : ℕ → ℕ → K → K → K}
    (hg : ∀ p < nx, ∀ q < ny, ∀ x y,
      g' (back X nx p) (back Y ny q) (across X P.a x) (across Y P.b y) = g p q x y) :
    gaussP G nx ny P' g' = gaussP G nx ny P g := by
  unfold gaussP gauss
  rw [h.xdom, h.ydom, ← sum_back X nx]
  refine Finset.sum_congr rfl fun p hp => ?_
  rw [← sum_back Y ny]
  refine Finset.sum_congr rfl fun q hq => ?_
  have hp := mem_range.1 hp
  have hq := mem_range.1 hq
  have e1 : ∀ (b : Bool) (len : K) (d : K × K), (if b then (len - d.2, len - d.1) else d).2
      - (if b then (len - d.2, len - d.1) else d).1 = d.2 - d.1 := by
    intro b len d
    cases b
    · rfl
    · simp
  have hnx := node_back hx hp P.a (xdom P).1 (xdom P).2
  have hny := node_back hy hq P.b (ydom P).1 (ydom P).2
  rw [Prod.mk.eta] at hnx hny
  rw [e1, e1, wt_back hx hp, wt_back hy hq, hnx, hny, hg p hp q hq]

end

end Verif

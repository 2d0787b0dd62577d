import Verif.Spec.UnitsShell
import Verif.Proofs.UnitsBuild
import Verif.Proofs.UnitsShell

/-!
# Fields, loads and point constraints in other units
-/

namespace Verif.Model

open Spec

variable {K : Type} [Field K] {U : UnitSys K}

theorem acc_mul (m n : ℕ) (k : K) (t : ℕ → ℕ → K) : acc m n (fun i j => k * t i j) = k * acc m n t := by
  have h : ∀ (l : List K) (z : K), (l.map (k * ·)).foldl (· + ·) (k * z) = k * l.foldl (· + ·) z := by
    intro l
    induction l with
    | nil => intro z; rfl
    | cons x l ih => intro z; simp only [List.map_cons, List.foldl_cons, ← mul_add, ih]
  unfold acc
  rw [← h, mul_zero]
  congr 1
  simp [List.map_flatMap, Function.comp_def]

theorem acc_units {m n : ℕ} {k : K} {t t' : ℕ → ℕ → K} (h : ∀ i j, t' i j = k * t i j) :
    acc m n t' = k * acc m n t := by
  rw [← acc_mul]
  exact congrArg _ (funext fun i => funext fun j => h i j)

theorem xi_units (a x : K) : 2 * (U.len * x) / (U.len * a) - 1 = 2 * x / a - 1 := by
  rw [mul_left_comm, mul_div_mul_left _ _ U.len_ne]

theorem two_div_units (a : K) : 2 / (U.len * a) = U.len⁻¹ * (2 / a) := by
  rw [div_mul_eq_div_div, div_right_comm, div_eq_inv_mul (2 / a)]

theorem acc_same {m n : ℕ} {t t' : ℕ → ℕ → K} (h : ∀ i j, t' i j = t i j) : acc m n t' = acc m n t :=
  congrArg _ (funext fun i => funext fun j => h i j)

variable [DecidableEq K] (S : Shape K) (P : Panel K)

theorem uvwAt_units (c : ℕ → K) (x y : K) :
    uvwAt S (U.panel P) (fun i => U.len * c i) (U.len * x) (U.len * y) = U.uvw (uvwAt S P c x y) := by
  have hl := mul_inv_cancel₀ U.len_ne
  simp only [uvwAt, UnitSys.uvw, UnitSys.panel, xi_units, two_div_units]
  congr 1
  · refine acc_units fun i j => ?_
    ring
  · refine acc_units fun i j => ?_
    ring
  · refine acc_units fun i j => ?_
    ring
  · refine congrArg (· * -1) ?_
    refine acc_same fun i j => ?_
    linear_combination (2 / P.a * c (dof P.m i j + 2) * S.fp i (2 * x / P.a - 1) P.xw
      * S.f j (2 * y / P.b - 1) P.yw) * hl
  · refine congrArg (· * -1) ?_
    refine acc_same fun i j => ?_
    linear_combination (2 / P.b * c (dof P.m i j + 2) * S.f i (2 * x / P.a - 1) P.xw
      * S.fp j (2 * y / P.b - 1) P.yw) * hl

theorem strainAt_units (c : ℕ → K) (NLgeom s : ℕ) (x y : K) :
    strainAt S (U.panel P) (fun i => U.len * c i) NLgeom s (U.len * x) (U.len * y)
      = U.strain (fun s => strainAt S P c NLgeom s x y) s := by
  have hl := mul_inv_cancel₀ U.len_ne
  have hw : ∀ f g : ℕ → K, acc P.m P.n (fun i j => U.len * c (dof P.m i j + 2) * f i * g j)
      = U.len * acc P.m P.n (fun i j => c (dof P.m i j + 2) * f i * g j) := by
    intro f g
    refine acc_units fun i j => ?_
    ring
  unfold UnitSys.strain
  match s with
  | 0 =>
    rw [if_pos (by omega)]
    simp only [strainAt, UnitSys.panel, xi_units, hw]
    refine acc_same fun i j => ?_
    have h2 : (NLgeom : K) * 2 / (U.len * P.a * (U.len * P.a))
        = U.len⁻¹ * U.len⁻¹ * ((NLgeom : K) * 2 / (P.a * P.a)) := by
      simp only [div_eq_mul_inv, mul_inv]; ring
    rw [h2, two_div_units]
    generalize acc P.m P.n (fun i j => c (dof P.m i j + 2) * S.fp i (2 * x / P.a - 1) P.xw
        * S.f j (2 * y / P.b - 1) P.yw) = V
    generalize (NLgeom : K) * 2 / (P.a * P.a) = q
    linear_combination (c (dof P.m i j + 0) * S.fp i (2 * x / P.a - 1) P.xu
        * S.f j (2 * y / P.b - 1) P.yu * (2 / P.a) + (U.len * U.len⁻¹ + 1) * (q * c (dof P.m i j + 2)
          * S.fp i (2 * x / P.a - 1) P.xw * S.f j (2 * y / P.b - 1) P.yw * V)) * hl
  | 1 =>
    rw [if_pos (by omega)]
    simp only [strainAt, UnitSys.panel, xi_units, hw]
    refine acc_same fun i j => ?_
    have h2 : (NLgeom : K) * 2 / (U.len * P.b * (U.len * P.b))
        = U.len⁻¹ * U.len⁻¹ * ((NLgeom : K) * 2 / (P.b * P.b)) := by
      simp only [div_eq_mul_inv, mul_inv]; ring
    have h3 : 1 / (U.len * P.r) = U.len⁻¹ * (1 / P.r) := by
      simp only [div_eq_mul_inv, mul_inv]; ring
    rw [h2, h3, two_div_units]
    generalize acc P.m P.n (fun i j => c (dof P.m i j + 2) * S.f i (2 * x / P.a - 1) P.xw
        * S.fp j (2 * y / P.b - 1) P.yw) = W
    by_cases hr : P.r = 0
    · rw [if_neg (by simp [hr]), if_neg (by simp [hr])]
      generalize (NLgeom : K) * 2 / (P.b * P.b) = q
      linear_combination (c (dof P.m i j + 1) * S.f i (2 * x / P.a - 1) P.xv
        * S.fp j (2 * y / P.b - 1) P.yv * (2 / P.b) + (U.len * U.len⁻¹ + 1) * (q * c (dof P.m i j + 2)
          * S.f i (2 * x / P.a - 1) P.xw * S.fp j (2 * y / P.b - 1) P.yw * W)) * hl
    · rw [if_pos hr, if_pos (mul_ne_zero U.len_ne hr)]
      generalize (NLgeom : K) * 2 / (P.b * P.b) = q
      linear_combination (c (dof P.m i j + 1) * S.f i (2 * x / P.a - 1) P.xv
        * S.fp j (2 * y / P.b - 1) P.yv * (2 / P.b)
        + 1 / P.r * c (dof P.m i j + 2) * S.f i (2 * x / P.a - 1) P.xw * S.f j (2 * y / P.b - 1) P.yw
        + (U.len * U.len⁻¹ + 1) * (q * c (dof P.m i j + 2)
          * S.f i (2 * x / P.a - 1) P.xw * S.fp j (2 * y / P.b - 1) P.yw * W)) * hl
  | 2 =>
    rw [if_pos (by omega)]
    simp only [strainAt, UnitSys.panel, xi_units, hw]
    refine acc_same fun i j => ?_
    have h2 : (NLgeom : K) * 4 / (U.len * P.a * (U.len * P.b))
        = U.len⁻¹ * U.len⁻¹ * ((NLgeom : K) * 4 / (P.a * P.b)) := by
      simp only [div_eq_mul_inv, mul_inv]; ring
    rw [h2, two_div_units, two_div_units]
    generalize acc P.m P.n (fun i j => c (dof P.m i j + 2) * S.f i (2 * x / P.a - 1) P.xw
        * S.fp j (2 * y / P.b - 1) P.yw) = W
    generalize acc P.m P.n (fun i j => c (dof P.m i j + 2) * S.fp i (2 * x / P.a - 1) P.xw
        * S.f j (2 * y / P.b - 1) P.yw) = V
    generalize (NLgeom : K) * 4 / (P.a * P.b) = q
    linear_combination (c (dof P.m i j + 0) * S.f i (2 * x / P.a - 1) P.xu
        * S.fp j (2 * y / P.b - 1) P.yu * (2 / P.b)
        + c (dof P.m i j + 1) * S.fp i (2 * x / P.a - 1) P.xv
        * S.f j (2 * y / P.b - 1) P.yv * (2 / P.a)
        + (U.len * U.len⁻¹ + 1) * (q * (c (dof P.m i j + 2) * S.fp i (2 * x / P.a - 1) P.xw
            * S.f j (2 * y / P.b - 1) P.yw * W
          + V * c (dof P.m i j + 2) * S.f i (2 * x / P.a - 1) P.xw
            * S.fp j (2 * y / P.b - 1) P.yw))) * hl
  | 3 =>
    rw [if_neg (by omega)]
    simp only [strainAt, UnitSys.panel, xi_units]
    refine acc_units fun i j => ?_
    simp only [div_eq_mul_inv, mul_inv]
    linear_combination (-(U.len⁻¹ * c (dof P.m i j + 2) * S.fpp i (2 * x * P.a⁻¹ - 1) P.xw
      * S.f j (2 * y * P.b⁻¹ - 1) P.yw * 4 * (P.a⁻¹ * P.a⁻¹))) * hl
  | 4 =>
    rw [if_neg (by omega)]
    simp only [strainAt, UnitSys.panel, xi_units]
    refine acc_units fun i j => ?_
    simp only [div_eq_mul_inv, mul_inv]
    linear_combination (-(U.len⁻¹ * c (dof P.m i j + 2) * S.f i (2 * x * P.a⁻¹ - 1) P.xw
      * S.fpp j (2 * y * P.b⁻¹ - 1) P.yw * 4 * (P.b⁻¹ * P.b⁻¹))) * hl
  | s + 5 =>
    rw [if_neg (by omega)]
    simp only [strainAt, UnitSys.panel, xi_units]
    refine acc_units fun i j => ?_
    simp only [div_eq_mul_inv, mul_inv]
    linear_combination (-2 * (U.len⁻¹ * c (dof P.m i j + 2) * S.fp i (2 * x * P.a⁻¹ - 1) P.xw
      * S.fp j (2 * y * P.b⁻¹ - 1) P.yw * 4 * (P.a⁻¹ * P.b⁻¹))) * hl

omit [DecidableEq K] in
theorem stressRow_units (ABD : ℕ → ℕ → K) (e : ℕ → K) (s : ℕ) :
    stressRow (U.abd ABD) (U.strain e) s = U.stress (stressRow ABD e) s := by
  have hl := mul_inv_cancel₀ U.len_ne
  by_cases hs : s < 3
  · simp [stressRow, UnitSys.abd, UnitSys.strain, UnitSys.stress, hs, UnitSys.line, div_eq_mul_inv]
    ring
  · simp [stressRow, UnitSys.abd, UnitSys.strain, UnitSys.stress, hs]
    linear_combination U.force * (e 3 * ABD s 3 + e 4 * ABD s 4 + e 5 * ABD s 5) * hl

omit [DecidableEq K] in
theorem padPts_units (cores : ℕ) (xs : List K) :
    padPts cores (xs.map (U.len * ·)) = (padPts cores xs).map (U.len * ·) := by
  unfold padPts
  simp only [List.length_map]
  split
  · simp
  · rfl

omit [Field K] [DecidableEq K] in
theorem reshape_map {α β : Type} (f : α → β) (rows : ℕ) (l : List α) :
    reshape rows (l.map f) = (reshape rows l).map (List.map f) := by
  simp [reshape, List.map_drop, List.map_take]

omit [Field K] [DecidableEq K] in
theorem zipWith_units {α β γ δ : Type} {f : α → α → γ} {f' : β → β → δ} {g : α → β} {h : γ → δ}
    (hf : ∀ x y, f' (g x) (g y) = h (f x y)) (l l' : List α) :
    List.zipWith f' (l.map g) (l'.map g) = (List.zipWith f l l').map h := by
  induction l generalizing l' with
  | nil => simp
  | cons x l ih =>
    cases l' with
    | nil => simp
    | cons y l' => simp [hf, ih]

omit [DecidableEq K] in
theorem points_units {γ : Type} {f f' : K → K → γ} {h : γ → γ}
    (hf : ∀ x y, f' (U.len * x) (U.len * y) = h (f x y)) (cores : ℕ) (xs ys : List K) :
    ((List.zipWith (fun rx ry => List.zipWith f' rx ry)
      (reshape cores (padPts cores (xs.map (U.len * ·))))
      (reshape cores (padPts cores (ys.map (U.len * ·))))).flatten).take (xs.map (U.len * ·)).length
      = (((List.zipWith (fun rx ry => List.zipWith f rx ry) (reshape cores (padPts cores xs))
        (reshape cores (padPts cores ys))).flatten).take xs.length).map h := by
  rw [padPts_units, padPts_units, reshape_map, reshape_map,
    zipWith_units (g := List.map (U.len * ·)) (h := List.map h) (f := fun rx ry => List.zipWith f rx ry)
      (fun rx ry => zipWith_units hf rx ry), List.length_map, List.map_take, List.map_flatten]

theorem fuvw_units (c : ℕ → K) (xs ys : List K) (cores : ℕ) :
    fuvw S (U.panel P) (fun i => U.len * c i) (xs.map (U.len * ·)) (ys.map (U.len * ·)) cores
      = (fuvw S P c xs ys cores).map U.uvw :=
  points_units (fun x y => uvwAt_units S P c x y) cores xs ys

theorem fstrain_units (c : ℕ → K) (xs ys : List K) (cores NLgeom : ℕ) :
    fstrain S (U.panel P) (fun i => U.len * c i) (xs.map (U.len * ·)) (ys.map (U.len * ·)) cores NLgeom
      = (fstrain S P c xs ys cores NLgeom).map U.strain :=
  points_units (fun x y => funext fun s => strainAt_units S P c NLgeom s x y) cores xs ys

omit [DecidableEq K] in
theorem linspace_units (a : K) (n : ℕ) : linspace 0 (U.len * a) n = (linspace 0 a n).map (U.len * ·) := by
  simp only [linspace, List.map_map]
  refine List.map_congr_left fun i _ => ?_
  simp only [Function.comp, sub_zero, zero_add, div_eq_mul_inv]
  ring

theorem defaultField_units (xs ys : Option (Arr K)) (gridx gridy : ℕ) :
    defaultField (U.panel P) (xs.map U.arr) (ys.map U.arr) gridx gridy
      = (defaultField P xs ys gridx gridy).map fun d =>
        (d.1.map (U.len * ·), d.2.1.map (U.len * ·), d.2.2) := by
  have hg : ∀ lx ly : List K, (ly.map (U.len * ·)).flatMap (fun _ => lx.map (U.len * ·))
      = (ly.flatMap fun _ => lx).map (U.len * ·) := fun lx ly => by
    simp [List.map_flatMap, List.flatMap_map]
  have hg' : ∀ lx ly : List K, ((ly.map (U.len * ·)).flatMap fun y => (lx.map (U.len * ·)).map fun _ => y)
      = (ly.flatMap fun y => lx.map fun _ => y).map (U.len * ·) := fun lx ly => by
    simp [List.map_flatMap, List.flatMap_map, Function.comp_def]
  have none_case : defaultField (U.panel P) none none gridx gridy
      = (defaultField P none none gridx gridy).map fun d =>
        (d.1.map (U.len * ·), d.2.1.map (U.len * ·), d.2.2) := by
    simp only [defaultField, UnitSys.panel, linspace_units, hg, hg']
    simp [Except.map]
  cases xs with
  | none => exact none_case
  | some xs =>
    cases ys with
    | none => exact none_case
    | some ys => exact ite_units Iff.rfl rfl rfl

theorem shellUvw_units (c : ℕ → K) (xs ys : Option (Arr K)) (gridx gridy cores : ℕ) :
    shellUvw S (U.panel P) (fun i => U.len * c i) (xs.map U.arr) (ys.map U.arr) gridx gridy cores
      = (shellUvw S P c xs ys gridx gridy cores).map fun t => (t.1, t.2.map U.uvw) := by
  unfold shellUvw
  refine bind_units (defaultField_units P xs ys gridx gridy) fun d => ?_
  rw [fuvw_units]; rfl

theorem shellStrain_units (c : ℕ → K) (xs ys : Option (Arr K)) (gridx gridy cores : ℕ) (NL : Bool) :
    shellStrain S (U.panel P) (fun i => U.len * c i) (xs.map U.arr) (ys.map U.arr) gridx gridy cores NL
      = (shellStrain S P c xs ys gridx gridy cores NL).map fun t => (t.1, t.2.map U.strain) := by
  unfold shellStrain
  refine bind_units (defaultField_units P xs ys gridx gridy) fun d => ?_
  rw [fstrain_units]; rfl

theorem shellStress_units (c : ℕ → K) (own ABD : Option (ℕ → ℕ → K)) (xs ys : Option (Arr K))
    (gridx gridy cores : ℕ) (NL : Bool) :
    shellStress S (U.panel P) (fun i => U.len * c i) (own.map U.abd) (ABD.map U.abd) (xs.map U.arr)
      (ys.map U.arr) gridx gridy cores NL
      = (shellStress S P c own ABD xs ys gridx gridy cores NL).map fun t => (t.1, t.2.map U.stress) := by
  unfold shellStress
  refine bind_units (shellStrain_units S P c xs ys gridx gridy cores NL) fun e => ?_
  have h : (ABD.map U.abd).orElse (fun _ => own.map U.abd) = (ABD.orElse fun _ => own).map U.abd := by
    cases ABD <;> rfl
  rw [h]
  cases ABD.orElse fun _ => own with
  | none => rfl
  | some A =>
    show Except.ok _ = Except.ok _
    refine congrArg _ (Prod.ext rfl ?_)
    simp only [List.map_map]
    exact List.map_congr_left fun e _ => funext fun s => stressRow_units A e s

/-! ## The interpolation matrix -/

/-- Factor of a row of the interpolation matrix. -/
def rowUnit (U : UnitSys K) (r : ℕ) : K := if r < 3 then 1 else U.len⁻¹

theorem cfgWrites_units (x y : K) : cfgWrites S (U.panel P) (U.len * x) (U.len * y)
    = (cfgWrites S P x y).map fun w => (w.1, rowUnit U w.1.1 * w.2) := by
  simp only [cfgWrites, UnitSys.panel, xi_units, two_div_units, List.map_flatMap]
  refine congrArg₂ _ (funext fun j => congrArg₂ _ (funext fun i => ?_) rfl) rfl
  simp only [List.map_cons, List.map_nil, rowUnit]
  norm_num
  constructor <;> ring

theorem fg_units (g g' : ℕ → ℕ → K) (hg : ∀ r c, g' r c = rowUnit U r * g r c) (x y : K) (r c : ℕ) :
    fg S (U.panel P) g' (U.len * x) (U.len * y) r c = rowUnit U r * fg S P g x y r c := by
  unfold fg
  rw [cfgWrites_units]
  generalize cfgWrites S P x y = ws
  induction ws generalizing g g' with
  | nil => exact hg r c
  | cons w ws ih =>
    rw [List.map_cons, List.foldl_cons, List.foldl_cons]
    refine ih _ _ fun r c => ?_
    unfold put2
    by_cases h : r = w.1.1 ∧ c = w.1.2
    · rw [if_pos h, if_pos h, h.1]
    · rw [if_neg h, if_neg h, hg]

theorem pointConstraint_units (x y : K) (u v w phix phiy : Bool) (kuvw kphi : K) (p q : ℕ) :
    pointConstraint S (U.panel P) (U.len * x) (U.len * y) u v w phix phiy (U.line * kuvw)
      (U.force * U.len * kphi) p q
      = U.line * pointConstraint S P x y u v w phix phiy kuvw kphi p q := by
  have hl := mul_inv_cancel₀ U.len_ne
  have hg := fg_units (U := U) S P (fun _ _ => 0) (fun _ _ => 0) (fun r c => (mul_zero _).symm) x y
  have h3 : ∀ z z' : K, U.force * U.len * kphi * (U.len⁻¹ * z * (U.len⁻¹ * z')) = U.line * (kphi * (z * z')) :=
    fun z z' => by
      unfold UnitSys.line
      rw [div_eq_mul_inv]
      linear_combination (U.force * U.len⁻¹ * kphi * z * z') * hl
  simp only [pointConstraint, hg, rowUnit]
  norm_num
  simp only [h3, mul_assoc U.line]
  cases u <;> cases v <;> cases w <;> cases phix <;> cases phiy <;>
    simp only [if_true, if_false, mul_add, mul_zero, Bool.false_eq_true]

/-! ## External forces -/

/-- The work arrays in other units. -/
structure FRel (U : UnitSys K) (s s' : FState K) : Prop where
  g : ∀ r c, s'.g r c = rowUnit U r * s.g r c
  f : ∀ k, s'.f k = U.force * s.f k

/-- Both fail alike, or both give related arrays. -/
def ERel (U : UnitSys K) (x x' : Except Err (FState K)) : Prop :=
  match x, x' with
  | .ok s, .ok s' => FRel U s s'
  | .error e, .error e' => e = e'
  | _, _ => False

omit [DecidableEq K] in
theorem ERel.bind {x x' : Except Err (FState K)} {f f' : FState K → Except Err (FState K)}
    (hx : ERel U x x') (hf : ∀ s s', FRel U s s' → ERel U (f s) (f' s')) : ERel U (x >>= f) (x' >>= f') := by
  cases x <;> cases x'
  · exact hx
  · exact hx.elim
  · exact hx.elim
  · exact hf _ _ hx

omit [DecidableEq K] in
theorem ERel.foldlM {α β : Type} {f : FState K → α → Except Err (FState K)}
    {f' : FState K → β → Except Err (FState K)} {h : α → β}
    (hf : ∀ s s' a, FRel U s s' → ERel U (f s a) (f' s' (h a))) (l : List α) (s s' : FState K)
    (hs : FRel U s s') : ERel U (l.foldlM f s) ((l.map h).foldlM f' s') := by
  induction l generalizing s s' with
  | nil => exact hs
  | cons a l ih =>
    rw [List.map_cons, List.foldlM_cons, List.foldlM_cons]
    exact ERel.bind (hf s s' a hs) fun t t' ht => ih t t' ht

theorem addAt_units {size col0 : ℕ} {s s' : FState K} (hs : FRel U s s') {x y w w' fx fy fz fx' fy' fz' : K}
    (hx : w' * fx' = U.force * (w * fx)) (hy : w' * fy' = U.force * (w * fy))
    (hz : w' * fz' = U.force * (w * fz)) :
    ERel U (addAt S P size col0 s x y w fx fy fz)
      (addAt S (U.panel P) size col0 s' (U.len * x) (U.len * y) w' fx' fy' fz') := by
  have hg := fg_units S P s.g s'.g hs.g x y
  unfold addAt
  rw [show getSize (U.panel P) = getSize P from rfl]
  by_cases hsz : size < col0 + getSize P
  · simp only [if_pos hsz]; rfl
  · simp only [if_neg hsz]
    refine ⟨hg, fun k => ?_⟩
    simp only [hs.f k]
    split
    · simp only [hg, rowUnit]
      norm_num
      linear_combination fg S P s.g x y 0 (k - col0) * hx + fg S P s.g x y 1 (k - col0) * hy
        + fg S P s.g x y 2 (k - col0) * hz
    · rfl

theorem addPoints_units {size col0 : ℕ} {s s' : FState K} (hs : FRel U s s') (l : List (PLoad K × K)) :
    ERel U (addPoints S P size col0 s l)
      (addPoints S (U.panel P) size col0 s' (l.map fun t => (U.pload t.1, t.2))) := by
  unfold addPoints
  refine ERel.foldlM (fun s s' a hs => ?_) l s s' hs
  exact addAt_units S P hs (by simp only [UnitSys.pload]; ring) (by simp only [UnitSys.pload]; ring)
    (by simp only [UnitSys.pload]; ring)

omit [DecidableEq K] in
theorem orZero_units (f : Option (K → K)) (t : K) :
    orZero (f.map U.lineFun) (U.len * t) = U.line * orZero f t := by
  cases f with
  | none => simp [orZero]
  | some f =>
    simp only [orZero, Option.map_some, UnitSys.lineFun]
    rw [mul_div_cancel_left₀ _ U.len_ne]

theorem addDistr_units (G : GaussTab K) {size col0 : ℕ} {s s' : FState K} (hs : FRel U s s')
    (l : DLoad K × K) : ERel U (addDistr S G P size col0 s l)
      (addDistr S G (U.panel P) size col0 s' (U.dload l.1, l.2)) := by
  have hl := mul_inv_cancel₀ U.len_ne
  have hw : ∀ g a z w : K, g * (U.len * a / 2) * (U.line * z * w) = U.force * (g * (a / 2) * (z * w)) := by
    intro g a z w
    simp only [UnitSys.line, div_eq_mul_inv]
    linear_combination (g * a * 2⁻¹ * U.force * z * w) * hl
  have hv : ∀ g a : K, g * (U.len * a) / 2 = U.len * (g * a / 2) := fun g a => by
    rw [mul_left_comm, mul_div_assoc]
  obtain ⟨⟨x, y, fx, fy, fz⟩, w⟩ := l
  cases x with
  | none =>
    cases y with
    | none => rfl
    | some y =>
      simp only [addDistr, UnitSys.dload, Option.map_none, Option.map_some]
      rw [← List.map_id (List.range (U.panel P).m)]
      refine ERel.foldlM (fun s s' p hs => ?_) _ s s' hs
      simp only [UnitSys.panel, id, hv, orZero_units]
      exact addAt_units S P hs (hw ..) (hw ..) (hw ..)
  | some x =>
    cases y with
    | some y => rfl
    | none =>
      simp only [addDistr, UnitSys.dload, Option.map_none, Option.map_some]
      rw [← List.map_id (List.range (U.panel P).n)]
      refine ERel.foldlM (fun s s' p hs => ?_) _ s s' hs
      simp only [UnitSys.panel, id, hv, orZero_units]
      exact addAt_units S P hs (hw ..) (hw ..) (hw ..)

theorem shellFext_units (G : GaussTab K) (L : Loads K) (inc : K) (size : SizeArg) (col0 : ℕ) :
    shellFext S G (U.panel P) (U.loads L) inc size col0
      = (shellFext S G P L inc size col0).map fun f k => U.force * f k := by
  have key : ∀ (x x' : Except Err (FState K)), ERel U x x' →
      (x' >>= fun s => pure s.f : Except Err (ℕ → K)) = (x >>= fun s => pure s.f : Except Err (ℕ → K)).map
        fun f k => U.force * f k := by
    intro x x' h
    cases x <;> cases x'
    · exact congrArg _ (Eq.symm h)
    · exact h.elim
    · exact h.elim
    · exact congrArg Except.ok (funext h.f)
  have hp : ∀ (l l' : List (PLoad K)), (l.map U.pload).map (fun l => (l, (1 : K)))
      ++ (l'.map U.pload).map (fun l => (l, inc))
      = (l.map (fun l => (l, (1 : K))) ++ l'.map (fun l => (l, inc))).map fun t => (U.pload t.1, t.2) := by
    intro l l'; simp [Function.comp_def]
  have hd : ∀ (l l' : List (DLoad K)), (l.map U.dload).map (fun l => (l, (1 : K)))
      ++ (l'.map U.dload).map (fun l => (l, inc))
      = (l.map (fun l => (l, (1 : K))) ++ l'.map (fun l => (l, inc))).map fun t => (U.dload t.1, t.2) := by
    intro l l'; simp [Function.comp_def]
  have h0 : FRel U ⟨fun _ _ => 0, fun _ => 0⟩ ⟨fun _ _ => 0, fun _ => 0⟩ :=
    ⟨fun _ _ => (mul_zero _).symm, fun _ => (mul_zero _).symm⟩
  simp only [shellFext, UnitSys.loads, hp, hd, show getSize (U.panel P) = getSize P from rfl]
  simp only [← bind_assoc]
  refine key _ _ (ERel.bind (ERel.bind (ERel.bind (addPoints_units S P h0 _) fun s s' hs => ?_)
    fun s s' hs => addPoints_units S P hs _) fun s s' hs => ?_)
  · exact ERel.foldlM (fun s s' a hs => addDistr_units S P G hs a) _ s s' hs
  · exact ERel.foldlM (fun s s' a hs => addDistr_units S P G hs a) _ s s' hs

end Verif.Model

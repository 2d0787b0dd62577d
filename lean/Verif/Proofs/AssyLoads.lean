import Verif.Basic.Exc
import Verif.Model.Assy

/-!
# Loops that load the panels of an assembly
-/

set_option linter.unusedSectionVars false

namespace Verif

open Model

variable {K : Type} [Field K] [LinearOrder K]

/-- The panel with a load `f` along its edge `x = a`. -/
def withLoad (p : Part K) (f : K → K) : Part K :=
  { p with loads := { p.loads with
      distrLoads := p.loads.distrLoads ++ [⟨some p.shell.pan.a, none, some f, none, none⟩] } }

/-- The assembly with a load on each of its first panels. -/
def loaded (A : Assy K) (n : ℕ) (f : ℕ → K → K) : Assy K :=
  { A with
    part := fun p => if p < n then withLoad (A.part p) (f p) else A.part p }

theorem apply_range {σ : Type} (L : LateLoads σ K) (A : Assy K) (n : ℕ) (g : ℕ → σ → K → K)
    (h : L.added = (List.range n).map fun i => (i, g i)) :
    L.apply A = .ok (loaded A n fun p => g p L.var) := by
  unfold LateLoads.apply
  rw [h]
  clear h
  induction n with
  | zero => simp [loaded]; rfl
  | succ n ih =>
    rw [List.range_succ, List.map_append, List.foldlM_append, ih]
    simp only [bind, Except.bind, List.map_cons, List.map_nil, List.foldlM_cons, List.foldlM_nil,
      Loads.addDistrLoadFixedX, Option.isSome_some, Option.isSome_none, Bool.or_false,
      Bool.not_true, Bool.false_eq_true, if_false, if_true, pure, Except.pure]
    congr 1
    unfold loaded
    congr 1
    funext p
    by_cases h1 : p = n
    · subst h1
      simp [withLoad]
    · rw [if_neg h1]
      dsimp only
      by_cases h2 : p < n
      · rw [if_pos h2, if_pos (by omega)]
      · rw [if_neg h2, if_neg (by omega)]

theorem staticLoop_eq (Nxxs : List K) (n : ℕ) : staticLoop Nxxs n
    = ⟨n - 1, (List.range n).map fun i => (i, fun i _ => Nxxs.getD i 0)⟩ := by
  unfold staticLoop
  induction n with
  | zero => rfl
  | succ n ih =>
    rw [List.range_succ, List.foldl_append, ih]
    simp

theorem splaLoop_eq (A : Assy K) : splaLoop A
    = ⟨A.count - 1, (List.range A.count).map fun i => (i, fun p _ => (A.part p).shell.Nxx)⟩ := by
  unfold splaLoop
  generalize A.count = n
  induction n with
  | zero => rfl
  | succ n ih =>
    rw [List.range_succ, List.foldl_append, ih]
    simp

/-- Groups of a stiffened cylinder. -/
structure Groups (A : Assy K) (n : ℕ) : Prop where
  count : A.count = n + n
  skin : ∀ p < n, (A.part p).group = "skin"
  blade : ∀ i < n, (A.part (n + i)).group = "blade"

/-- The variables after some panels. -/
def varsAt (NxxsSkin NxxsBlade : List K) (n k : ℕ) : BladeVars K where
  iSkin := min k n
  iBlade := k - n
  Nxx := if k = 0 then none else if k ≤ n then some (NxxsSkin.getD (k - 1) 0)
    else some (NxxsBlade.getD (k - n - 1) 0)

theorem bladeStep_at {A : Assy K} {n : ℕ} (hA : Groups A n) (NxxsSkin NxxsBlade : List K) {k : ℕ}
    (hk : k < n + n) : bladeStep NxxsSkin NxxsBlade (A.part k).group (varsAt NxxsSkin NxxsBlade n k)
      = varsAt NxxsSkin NxxsBlade n (k + 1) := by
  rcases Nat.lt_or_ge k n with h | h
  · rw [hA.skin k h, bladeStep, if_pos rfl]
    simp only [varsAt, Nat.min_eq_left h.le, Nat.min_eq_left (show k + 1 ≤ n from h)]
    simp [show k + 1 ≤ n from h, show k - n = 0 by omega, show k + 1 - n = 0 by omega]
  · have e : k = n + (k - n) := by omega
    rw [show (A.part k).group = "blade" by rw [e]; exact hA.blade _ (by omega), bladeStep,
      if_neg (by decide), if_pos rfl]
    simp only [varsAt, Nat.min_eq_right h, Nat.min_eq_right (show n ≤ k + 1 by omega)]
    simp [show ¬ k + 1 ≤ n by omega, show k + 1 - n = k - n + 1 by omega]

theorem bladeStaticLoop_eq {A : Assy K} {n : ℕ} (hA : Groups A n) (NxxsSkin NxxsBlade : List K) :
    bladeStaticLoop NxxsSkin NxxsBlade A = ⟨varsAt NxxsSkin NxxsBlade n (n + n),
      (List.range (n + n)).map fun i => (i, fun v _ => v.Nxx.getD 0)⟩ := by
  unfold bladeStaticLoop
  rw [hA.count]
  suffices ∀ k ≤ n + n, (List.range k).foldl (fun (L : LateLoads (BladeVars K) K) p =>
      (⟨bladeStep NxxsSkin NxxsBlade (A.part p).group L.var,
        L.added ++ [(p, fun v _ => v.Nxx.getD 0)]⟩ : LateLoads (BladeVars K) K)) ⟨{}, []⟩
      = ⟨varsAt NxxsSkin NxxsBlade n k, (List.range k).map fun i => (i, fun v _ => v.Nxx.getD 0)⟩ from
    this _ le_rfl
  intro k
  induction k with
  | zero => intro _; simp [varsAt]
  | succ k ih =>
    intro hk
    rw [List.range_succ, List.foldl_append, ih (by omega)]
    simp [bladeStep_at hA NxxsSkin NxxsBlade (show k < n + n by omega)]

/-- The panels after the loop for constant loads. -/
def constLoads (NxxsSkin NxxsBlade : List K) (A : Assy K) (n k : ℕ) : Assy K :=
  { A with
    part := fun p =>
      if k ≤ p then A.part p
      else if p < n then ((A.part p).setNxx (NxxsSkin.getD p 0)).freeX2u
      else ((A.part p).setNxx (NxxsBlade.getD (p - n) 0)).freeX2u }

theorem bladeNxxLoop_eq {A : Assy K} {n : ℕ} (hA : Groups A n) (NxxsSkin NxxsBlade : List K) :
    bladeNxxLoop NxxsSkin NxxsBlade A = constLoads NxxsSkin NxxsBlade A n (n + n) := by
  unfold bladeNxxLoop
  rw [hA.count]
  suffices ∀ k ≤ n + n, (List.range k).foldl (bladeNxxStep NxxsSkin NxxsBlade) (A, {})
      = (constLoads NxxsSkin NxxsBlade A n k, varsAt NxxsSkin NxxsBlade n k) by
    rw [this _ le_rfl]
  intro k
  induction k with
  | zero => intro _; simp [varsAt, constLoads]
  | succ k ih =>
    intro hk
    rw [List.range_succ, List.foldl_append, ih (by omega)]
    have e : (constLoads NxxsSkin NxxsBlade A n k).part k = A.part k := if_pos le_rfl
    simp only [List.foldl_cons, List.foldl_nil, bladeNxxStep, e,
      bladeStep_at hA NxxsSkin NxxsBlade (show k < n + n by omega)]
    congr 1
    unfold constLoads
    congr 1
    funext p
    by_cases h1 : p = k
    · subst h1
      rw [if_pos rfl, if_neg (by omega)]
      by_cases h2 : p < n
      · simp [bladeAssign, varsAt, h2, show p + 1 ≤ n from h2]
      · simp [bladeAssign, varsAt, h2, show ¬ p + 1 ≤ n by omega, show p + 1 - n - 1 = p - n by omega]
    · rw [if_neg h1]
      dsimp only
      by_cases h2 : k ≤ p
      · rw [if_pos h2, if_pos (by omega)]
      · rw [if_neg h2, if_neg (show ¬ k + 1 ≤ p by omega)]

end Verif

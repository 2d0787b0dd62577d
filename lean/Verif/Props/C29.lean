import Verif.Proofs.FieldOut
import Verif.Spec.Witness
import Verif.Spec.Bardell
import Mathlib.Tactic.NormNum

/-!
# C29: field output is independent of the number of cores
-/

namespace Verif.C29

open Model Spec

variable {K : Type*} [Field K]

/-- `fuvw` gives the values of the series at the requested points, in the order of the points, for
every positive number of cores. -/
theorem uvw_points (S : Shape K) (P : Panel K) (c : ℕ → K) (xs ys : List K)
    (h : xs.length = ys.length) (cores : ℕ) (hc : 0 < cores) :
    (fuvw S P c xs ys cores).length = xs.length ∧
    ∀ k (hk : k < xs.length), ∃ o, (fuvw S P c xs ys cores)[k]? = some o ∧
      let ξ := 2 * xs[k] / P.a - 1
      let η := 2 * (ys[k]'(h ▸ hk)) / P.b - 1
      o.u = disp S P 0 c 0 0 0 ξ η ∧ o.v = disp S P 0 c 1 0 0 ξ η ∧ o.w = disp S P 0 c 2 0 0 ξ η ∧
      o.phix = - disp S P 0 c 2 1 0 ξ η ∧ o.phiy = - disp S P 0 c 2 0 1 ξ η := by
  have e : fuvw S P c xs ys cores = List.zipWith (uvwAt S P c) xs ys :=
    chunked_eq (uvwAt S P c) cores hc xs ys h
  refine ⟨by simp [e, h], fun k hk => ?_⟩
  refine ⟨uvwAt S P c xs[k] (ys[k]'(h ▸ hk)), ?_, ?_⟩
  · rw [e, List.getElem?_zipWith, List.getElem?_eq_getElem hk, List.getElem?_eq_getElem (h ▸ hk)]
  · rw [uvwAt_field]
    exact ⟨rfl, rfl, rfl, rfl, rfl⟩

example : ([0, 1, 3] : List ℚ).length = ([0, 1, 1] : List ℚ).length ∧ 0 < 2 :=
  ⟨rfl, by norm_num⟩

/-- The displacement output is the same for any two numbers of cores. -/
theorem uvw_cores (S : Shape K) (P : Panel K) (c : ℕ → K) (xs ys : Option (Arr K))
    (hx : ∀ X, xs = some X → X.data.length = X.shape.prod)
    (hy : ∀ Y, ys = some Y → Y.data.length = Y.shape.prod)
    (gridx gridy k k' : ℕ) (hk : 0 < k) (hk' : 0 < k') :
    shellUvw S P c xs ys gridx gridy k = shellUvw S P c xs ys gridx gridy k' := by
  unfold shellUvw
  cases hd : defaultField P xs ys gridx gridy with
  | error e => rfl
  | ok d =>
    have hl : d.1.length = d.2.1.length := by
      unfold defaultField at hd
      split at hd
      · rename_i X Y
        simp only at hd
        split at hd
        · cases hd
        · rename_i hs
          rw [not_not] at hs
          cases hd
          rw [hx X rfl, hy Y rfl, hs]
      · simp only [ne_eq, not_true_eq_false, if_false, Except.ok.injEq] at hd
        rw [← hd]
        simp [linspace, List.length_flatMap]
    have e : ∀ q, 0 < q → fuvw S P c d.1 d.2.1 q = List.zipWith (uvwAt S P c) d.1 d.2.1 :=
      fun q hq => chunked_eq (uvwAt S P c) q hq _ _ hl
    change Except.ok (d.2.2, fuvw S P c d.1 d.2.1 k) = Except.ok (d.2.2, fuvw S P c d.1 d.2.1 k')
    rw [e k hk, e k' hk']

/-- The strain output is the same for any two numbers of cores. -/
theorem strain_cores [DecidableEq K] (S : Shape K) (P : Panel K) (c : ℕ → K)
    (xs ys : Option (Arr K))
    (hx : ∀ X, xs = some X → X.data.length = X.shape.prod)
    (hy : ∀ Y, ys = some Y → Y.data.length = Y.shape.prod)
    (gridx gridy k k' : ℕ) (NL : Bool) (hk : 0 < k) (hk' : 0 < k') :
    shellStrain S P c xs ys gridx gridy k NL = shellStrain S P c xs ys gridx gridy k' NL := by
  unfold shellStrain
  cases hd : defaultField P xs ys gridx gridy with
  | error e => rfl
  | ok d =>
    have hl : d.1.length = d.2.1.length := by
      unfold defaultField at hd
      split at hd
      · rename_i X Y
        simp only at hd
        split at hd
        · cases hd
        · rename_i hs
          rw [not_not] at hs
          cases hd
          rw [hx X rfl, hy Y rfl, hs]
      · simp only [ne_eq, not_true_eq_false, if_false, Except.ok.injEq] at hd
        rw [← hd]
        simp [linspace, List.length_flatMap]
    have e : ∀ q, 0 < q → fstrain S P c d.1 d.2.1 q NL.toNat
        = List.zipWith (fun x y s => strainAt S P c NL.toNat s x y) d.1 d.2.1 :=
      fun q hq => chunked_eq _ q hq _ _ hl
    change Except.ok (d.2.2, fstrain S P c d.1 d.2.1 k NL.toNat)
      = Except.ok (d.2.2, fstrain S P c d.1 d.2.1 k' NL.toNat)
    rw [e k hk, e k' hk']

example : shellUvw (bardellShape ℚ) Witness.panel (fun k => k) (some ⟨[3], [0, 1, 3]⟩)
      (some ⟨[3], [0, 1, 1]⟩) 300 300 4
    = shellUvw (bardellShape ℚ) Witness.panel (fun k => k) (some ⟨[3], [0, 1, 3]⟩)
      (some ⟨[3], [0, 1, 1]⟩) 300 300 1 :=
  uvw_cores _ _ _ _ _ (fun X h => by cases h; rfl) (fun X h => by cases h; rfl) _ _ _ _
    (by norm_num) (by norm_num)

/-- The strain of each requested point is that of the point alone, in order. -/
theorem strain_points [DecidableEq K] (S : Shape K) (P : Panel K) (c : ℕ → K) (xs ys : List K)
    (h : xs.length = ys.length) (cores NL : ℕ) (hc : 0 < cores) :
    (fstrain S P c xs ys cores NL).length = xs.length ∧
    ∀ k (hk : k < xs.length), (fstrain S P c xs ys cores NL)[k]? =
      (fstrain S P c [xs[k]] [ys[k]'(h ▸ hk)] 1 NL)[0]? := by
  have e : ∀ (xs ys : List K), xs.length = ys.length → ∀ q, 0 < q → fstrain S P c xs ys q NL
      = List.zipWith (fun x y s => strainAt S P c NL s x y) xs ys :=
    fun xs ys hl q hq => chunked_eq _ q hq _ _ hl
  refine ⟨by simp [e xs ys h cores hc, h], fun k hk => ?_⟩
  rw [e xs ys h cores hc, e [xs[k]] [ys[k]'(h ▸ hk)] rfl 1 one_pos, List.getElem?_zipWith,
    List.getElem?_eq_getElem hk, List.getElem?_eq_getElem (h ▸ hk)]
  rfl

end Verif.C29

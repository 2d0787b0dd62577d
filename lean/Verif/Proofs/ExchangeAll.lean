import Verif.Proofs.AssyMass
import Verif.Proofs.AssyRigid
import Verif.Proofs.Exchange
import Verif.Proofs.Rotate
import Verif.Spec.ExchangeAll

/-!
# Lemmas on exchanged assemblies
-/

set_option linter.unusedSectionVars false

namespace Verif

open Model Spec

/-! ## Numbers -/

/-- Renumbering one plate. -/
def flipEquiv (m n s : ℕ) : ℕ ≃ ℕ := ⟨flipNo m n s, flipNo n m s, flipNo_flipNo, flipNo_flipNo⟩

/-- Renumbering all plates. -/
def swapEquiv (m n start : ℕ → ℕ) : ℕ → (ℕ ≃ ℕ)
  | 0 => Equiv.refl ℕ
  | c + 1 => (swapEquiv m n start c).trans (flipEquiv (m c) (n c) (start c))

section
variable {m n start : ℕ → ℕ} {c : ℕ}

theorem swapEquiv_apply (c k : ℕ) : swapEquiv m n start c k = swapNo m n start c k := by
  induction c with
  | zero => rfl
  | succ c ih => exact congrArg (flipNo (m c) (n c) (start c)) ih

theorem flipNo_in {m n s k : ℕ} (h : s ≤ k ∧ k < s + 3 * (m * n)) :
    s ≤ flipNo m n s k ∧ flipNo m n s k < s + 3 * (m * n) := by
  obtain ⟨i, hi, j, hj, α, hα, rfl⟩ := exists_number (Finset.mem_Ico.2 h)
  unfold Spec.number
  rw [flipNo_number hi hj hα]
  have := number_lt (s := s) hj hi (other_lt hα)
  rw [mul_comm n m] at this
  exact ⟨by omega, this⟩

/-- In every block only the plate of that block matters. -/
theorem swapNo_block (hs : ∀ p q, p < q → q < c → start p + 3 * (m p * n p) ≤ start q) {p k : ℕ} (hp : p < c)
    (hk : start p ≤ k ∧ k < start p + 3 * (m p * n p)) :
    swapNo m n start c k = flipNo (m p) (n p) (start p) k := by
  have key : ∀ c' ≤ c, swapNo m n start c' k = if p < c' then flipNo (m p) (n p) (start p) k else k := by
    intro c' hc
    induction c' with
    | zero => simp [swapNo]
    | succ c' ih =>
      rw [swapNo, ih (by omega)]
      have hin := flipNo_in hk
      rcases lt_trichotomy p c' with h | rfl | h
      · rw [if_pos h, if_pos (by omega), flipNo, if_neg]
        have := hs p c' h (by omega)
        omega
      · rw [if_neg (lt_irrefl _), if_pos (by omega)]
      · rw [if_neg (by omega), if_neg (by omega), flipNo, if_neg]
        have := hs c' p h hp
        omega
  rw [key c le_rfl, if_pos hp]

end

/-! ## Energies of one plate -/

section
variable {S : Shape ℝ} {P P' : Panel ℝ}

theorem strainWork_flip (hS : S.C2) (h : Exchanged P P') (hr : P.r = 0) (hr' : P'.r = 0) (F : ℕ → ℕ → ℝ)
    (c : ℕ → ℝ) : strainWork S P' (flipLam F) (flipped P.m P.n 0 c) = strainWork S P F c := by
  unfold strainWork
  simp only [hr, hr', div_zero, linStrain_lin hS]
  have e3 := integral_flip (g := fun x y => Spec.dens 6 F fun j => lin 0 S P 0 c j x y)
    (dens_continuous hS F 0 P 0 c) P.a P.b
  rw [e3, h.a, h.b]
  refine intervalIntegral.integral_congr fun y _ => intervalIntegral.integral_congr fun x _ => ?_
  exact dens_flip F fun j hj => lin_flip h 0 c hj x y

theorem slopeWork_flip (hS : S.C2) (h : Exchanged P P') (N1 N2 N3 : ℝ) (c : ℕ → ℝ) :
    slopeWork S P' N2 N1 N3 (flipped P.m P.n 0 c) = slopeWork S P N1 N2 N3 c := by
  have hc : Continuous fun z : ℝ × ℝ => N1 * dx (u S P 0 c 2) z.1 z.2 ^ 2
      + 2 * N3 * (dx (u S P 0 c 2) z.1 z.2 * dy (u S P 0 c 2) z.1 z.2)
      + N2 * dy (u S P 0 c 2) z.1 z.2 ^ 2 := by
    simp only [u_dx hS, u_dy hS]
    have d3 := disp_continuous hS P 0 c 2 1 0
    have d4 := disp_continuous hS P 0 c 2 0 1
    fun_prop
  have e3 := integral_flip (g := fun x y => N1 * dx (u S P 0 c 2) x y ^ 2
      + 2 * N3 * (dx (u S P 0 c 2) x y * dy (u S P 0 c 2) x y)
      + N2 * dy (u S P 0 c 2) x y ^ 2) hc P.a P.b
  unfold slopeWork
  rw [e3, h.a, h.b]
  refine intervalIntegral.integral_congr fun y _ => intervalIntegral.integral_congr fun x _ => ?_
  have hd := fun {p q} => disp_at (S := S) h 0 c (α := 2) (by omega) p q x y
  simp only [u_dx hS, u_dy hS, hd, other]
  ring

theorem kineticWork_flip (hS : S.C2) (h : Exchanged P P') (rho t off : ℝ) (c : ℕ → ℝ) :
    kineticWork S P' rho t off (flipped P.m P.n 0 c) = kineticWork S P rho t off c := by
  have hc : Continuous fun z : ℝ × ℝ =>
      C20.kinetic rho t off (u S P 0 c 0) (u S P 0 c 1) (u S P 0 c 2) z.1 z.2 := by
    have hd := disp_continuous hS P 0 c
    simp only [C20.kinetic, u_dx hS, u_dy hS, u_disp]
    have d0 := hd 0 0 0
    have d1 := hd 1 0 0
    have d2 := hd 2 0 0
    have d3 := hd 2 1 0
    have d4 := hd 2 0 1
    fun_prop
  unfold kineticWork
  rw [integral_flip hc, h.a, h.b]
  refine intervalIntegral.integral_congr fun y _ => intervalIntegral.integral_congr fun x _ => ?_
  have hd := fun {α p q} (hα : α < 3) => disp_at (S := S) h 0 c (α := α) hα p q x y
  simp only [C20.kinetic, u_dx hS, u_dy hS, u_disp, hd (α := 0) (by omega), hd (α := 1) (by omega),
    hd (α := 2) (by omega), other]
  ring

theorem kineticWork_block (rho t off : ℝ) {c d : ℕ → ℝ} (h : ∀ k < 3 * P.m * P.n, c k = d k) :
    kineticWork S P rho t off c = kineticWork S P rho t off d := by
  have h' : ∀ k < 3 * P.m * P.n, c (0 + k) = d (0 + k) := fun k hk => by rw [Nat.zero_add, h k hk]
  unfold kineticWork
  rw [u_block h' (α := 0) (by omega), u_block h' (α := 1) (by omega), u_block h' (α := 2) (by omega)]

/-! ## Energy of one joint -/

theorem springs_flip (hS : S.C2) {P1 P2 P1' P2' : Panel ℝ} (h1 : Exchanged P1 P1') (h2 : Exchanged P2 P2')
    {a b : ℕ} {v v' : ℕ → ℝ} (e1 : ∀ α < 3, u S P1' a v' α = fun y x => u S P1 a v (other α) x y)
    (e2 : ∀ α < 3, u S P2' b v' α = fun y x => u S P2 b v (other α) x y) {f : String}
    (hf : f = "SSxcte" ∨ f = "SSycte" ∨ f = "BFxcte" ∨ f = "BFycte" ∨ f = "SB") (kt kr z1 z2 : ℝ) :
    C40.springs S P1' P2' a b v' (exFunc f) kt kr z1 z2 = C40.springs S P1 P2 a b v f kt kr z1 z2 := by
  have a0 := e1 0 (by omega)
  have a1 := e1 1 (by omega)
  have a2 := e1 2 (by omega)
  have b0 := e2 0 (by omega)
  have b1 := e2 1 (by omega)
  have b2 := e2 2 (by omega)
  rcases hf with rfl | rfl | rfl | rfl | rfl
  · simp only [C40.springs, exFunc, a0, a1, a2, b0, b1, b2, h1.a, h2.a, other, dx, dy,
      jointEnergy, String.reduceEq, if_false, if_true]
    exact intervalIntegral.integral_congr fun y _ => by ring
  · simp only [C40.springs, exFunc, a0, a1, a2, b0, b1, b2, h1.b, h2.b, other, dx, dy,
      jointEnergy, String.reduceEq, if_false, if_true]
    exact intervalIntegral.integral_congr fun y _ => by ring
  · simp only [C40.springs, exFunc, a0, a1, a2, b0, b1, b2, h1.a, h2.a, other, dx, dy,
      jointEnergy, String.reduceEq, if_false, if_true]
    exact intervalIntegral.integral_congr fun y _ => by ring
  · simp only [C40.springs, exFunc, a0, a1, a2, b0, b1, b2, h1.b, h2.b, other, dx, dy,
      jointEnergy, String.reduceEq, if_false, if_true]
    exact intervalIntegral.integral_congr fun y _ => by ring
  · simp only [C40.springs, exFunc, a0, a1, a2, b0, b1, b2, h1.a, h2.a, h1.b, h2.b, other,
      areaEnergy, String.reduceEq, if_false]
    have hc : Continuous fun z : ℝ × ℝ => kt *
        ((u S P1 a v 0 z.1 z.2 + z1 * dx (u S P1 a v 2) z.1 z.2
            - u S P2 b v 0 (P2.a / P1.a * z.1) (P2.b / P1.b * z.2)) ^ 2
          + (u S P1 a v 1 z.1 z.2 + z1 * dy (u S P1 a v 2) z.1 z.2
            - u S P2 b v 1 (P2.a / P1.a * z.1) (P2.b / P1.b * z.2)) ^ 2
          + (u S P1 a v 2 z.1 z.2 - u S P2 b v 2 (P2.a / P1.a * z.1) (P2.b / P1.b * z.2)) ^ 2) := by
      have hd := disp_continuous hS P1 a v
      have hd2 := fun α => (disp_continuous hS P2 b v α 0 0).comp
        (show Continuous fun z : ℝ × ℝ => (P2.a / P1.a * z.1, P2.b / P1.b * z.2) by fun_prop)
      simp only [u_dx hS, u_dy hS, u_disp]
      have d0 := hd 0 0 0
      have d1 := hd 1 0 0
      have d2 := hd 2 0 0
      have d3 := hd 2 1 0
      have d4 := hd 2 0 1
      have f0 := hd2 0
      have f1 := hd2 1
      have f2 := hd2 2
      simp only [Function.comp_def] at f0 f1 f2
      fun_prop
    refine Eq.trans ?_ (integral_flip (g := fun x y => kt *
        ((u S P1 a v 0 x y + z1 * dx (u S P1 a v 2) x y
            - u S P2 b v 0 (P2.a / P1.a * x) (P2.b / P1.b * y)) ^ 2
          + (u S P1 a v 1 x y + z1 * dy (u S P1 a v 2) x y
            - u S P2 b v 1 (P2.a / P1.a * x) (P2.b / P1.b * y)) ^ 2
          + (u S P1 a v 2 x y - u S P2 b v 2 (P2.a / P1.a * x) (P2.b / P1.b * y)) ^ 2)) hc P1.a P1.b).symm
    refine intervalIntegral.integral_congr fun y _ => intervalIntegral.integral_congr fun x _ => ?_
    simp only [dx, dy]
    ring

end

/-! ## The constants of a joint -/

theorem exFunc_kind {f : String}
    (hf : f = "SSxcte" ∨ f = "SSycte" ∨ f = "BFxcte" ∨ f = "BFycte") (p q p' q' : PenLam ℝ)
    (hp : p'.A11 = p.A22 ∧ p'.A22 = p.A11 ∧ p'.D11 = p.D22 ∧ p'.D22 = p.D11 ∧ p'.h = p.h)
    (hq : q'.A11 = q.A22 ∧ q'.A22 = q.A11 ∧ q'.D11 = q.D22 ∧ q'.D22 = q.D11 ∧ q'.h = q.h) :
    calcKtKr p' q' (C40.penKind (exFunc f)) = calcKtKr p q (C40.penKind f) := by
  obtain ⟨p1, p2, p3, p4, p5⟩ := hp
  obtain ⟨q1, q2, q3, q4, q5⟩ := hq
  have lx : lower "xcte" = "xcte" := by decide
  have ly : lower "ycte" = "ycte" := by decide
  rcases hf with rfl | rfl | rfl | rfl <;>
    simp [C40.penKind, exFunc, calcKtKr, lx, ly, p1, p2, p3, p4, p5, q1, q2, q3, q4, q5]

/-- The joint over an area: only when both laminates are equally stiff along the two axes. -/
theorem exFunc_bot (p q p' q' : PenLam ℝ) (hp : p'.A11 = p.A11 ∧ p'.h = p.h ∧ p'.a = p.b ∧ p'.b = p.a)
    (hq : q'.A11 = q.A11 ∧ q'.h = q.h) :
    calcKtKr p' q' (C40.penKind (exFunc "SB")) = calcKtKr p q (C40.penKind "SB") := by
  obtain ⟨p1, p2, p3, p4⟩ := hp
  obtain ⟨q1, q2⟩ := hq
  have lb : lower "bot-top" = "bot-top" := by decide
  simp [C40.penKind, exFunc, calcKtKr, lb, p1, p2, p3, p4, q1, q2, min_comm]

/-! ## The normal form of a joint -/

/-- First and second panel of a joint, and its positions on them: the panel with the smaller number comes
first. -/
def lo {K : Type*} (d : ConnD K) : ℕ := if d.p1 < d.p2 then d.p1 else d.p2
def hi {K : Type*} (d : ConnD K) : ℕ := if d.p1 < d.p2 then d.p2 else d.p1
noncomputable def posLo (d : ConnD ℝ) : ℝ :=
  if d.p1 < d.p2 then jointPos d.func d.xcte1 d.ycte1 else jointPos d.func d.xcte2 d.ycte2
noncomputable def posHi (d : ConnD ℝ) : ℝ :=
  if d.p1 < d.p2 then jointPos d.func d.xcte2 d.ycte2 else jointPos d.func d.xcte1 d.ycte1

theorem springs_SB (S : Shape ℝ) (P1 P2 : Panel ℝ) (a b : ℕ) (v : ℕ → ℝ) (kt kr kr' z1 z2 z2' : ℝ) :
    C40.springs S P1 P2 a b v "SB" kt kr z1 z2 = C40.springs S P1 P2 a b v "SB" kt kr' z1 z2' := by
  simp [C40.springs]

section
variable {E : Env ℝ} {A : Assy ℝ} {T : ℕ → Shell ℝ}

/-- The energy of a joint, however its dictionary is written. -/
theorem Fit.joint (h : Fit E A T) {d : ConnD ℝ} (hd : d ∈ A.conns) {e : (ℕ → ℝ) → ℝ}
    (ht : C40.Term E (A.after T) d e) :
    lo d < A.count ∧ hi d < A.count ∧ ∃ lA lB kt kr', (T (lo d)).lam = some lA ∧ (T (hi d)).lam = some lB ∧
      0 < kt ∧
      calcKtKr (penOf (T (lo d)) lA) (penOf (T (hi d)) lB) (C40.penKind d.func) = some (kt, kr') ∧
      ∀ v, e v = C40.springs E.S (A.panel (lo d)) (A.panel (hi d)) (A.start (lo d)) (A.start (hi d)) v
        d.func kt (kr'.getD 0) (if d.func = "SB" then (thick T (lo d) + thick T (hi d)) / 2 else posLo d)
        (posHi d) := by
  have hj := h.joined d hd
  obtain ⟨m1, m2, hne, hk⟩ := hj
  have m1 := List.mem_range.1 m1
  have m2 := List.mem_range.1 m2
  have hf : d.func ≠ "SB_TSL" := by
    rcases hk with ⟨h1 | h1, -⟩ | ⟨h1 | h1, -⟩ | h1 <;> rw [h1] <;> decide
  obtain ⟨p, q, d', qA, qB, tA, tB, kt, kr, z1, z2, hA, hB, hor, hc, hkt, hC, hAt, he⟩ := ht
  have hp : p < A.count ∧ q < A.count := by
    rcases hor with ⟨rfl, rfl, -⟩ | ⟨rfl, rfl, -⟩
    · exact ⟨m1, m2⟩
    · exact ⟨m2, m1⟩
  obtain ⟨hp, hq⟩ := hp
  have hdf : d'.func = d.func := by
    rcases hor with ⟨-, -, rfl⟩ | ⟨-, -, rfl⟩
    · rfl
    · exact C40.swap_func d
  rw [place_start hp hA, place_start hq hB] at hc he
  rw [h.start_lt_iff hp hq] at hc
  rw [C40.Constants, if_neg hf] at hC
  obtain ⟨r1, r2, lA, lB, kr', l1, l2, hpen, hkr⟩ := hC
  rw [after_shell hp, h.fixed hp] at r1
  rw [after_shell hq, h.fixed hq] at r2
  obtain rfl := Except.ok.inj r1
  obtain rfl := Except.ok.inj r2
  have e1 : ((A.after T).shells p).panel = A.panel p := by
    rw [after_shell hp]
    exact (rebuild_kept E (h.built _ hp)).2.2.1
  have e2 : ((A.after T).shells q).panel = A.panel q := by
    rw [after_shell hq]
    exact (rebuild_kept E (h.built _ hq)).2.2.1
  rw [e1, e2] at he
  have hpen' : calcKtKr (penOf (T p) lA) (penOf (T q) lB) (C40.penKind d.func) = some (kt, kr') := hpen
  have hkr' : d.func ≠ "SB" → kr = kr'.getD 0 := fun hfn => by
    have hx : C40.penKind d.func = "xcte" ∨ C40.penKind d.func = "ycte" := by
      rcases hk with ⟨h1 | h1, -⟩ | ⟨h1 | h1, -⟩ | h1
      · rw [h1]; decide
      · rw [h1]; decide
      · rw [h1]; decide
      · rw [h1]; decide
      · exact absurd h1 hfn
    have : ∃ k, kr' = some k := by
      rcases hx with hx | hx
      · obtain ⟨a, b, hab⟩ := pen_xcte (penOf (T p) lA) (penOf (T q) lB)
        rw [hx, hab] at hpen'
        simp only [Option.some.injEq, Prod.mk.injEq] at hpen'
        exact ⟨b, hpen'.2.symm⟩
      · obtain ⟨a, b, hab⟩ := pen_ycte (penOf (T p) lA) (penOf (T q) lB)
        rw [hx, hab] at hpen'
        simp only [Option.some.injEq, Prod.mk.injEq] at hpen'
        exact ⟨b, hpen'.2.symm⟩
    obtain ⟨k, rfl⟩ := this
    exact (hkr k rfl).symm
  obtain ⟨w1, w2⟩ := at_pos (h.joined d hd) hdf hAt
  have ht1 : (T p).fixR.plyts.sum = thick T p := rfl
  have ht2 : (T q).fixR.plyts.sum = thick T q := rfl
  have hlo : lo d = p ∧ hi d = q ∧ (d.func ≠ "SB" → z1 = posLo d ∧ z2 = posHi d) := by
    unfold lo hi posLo posHi
    rcases hor with ⟨rfl, rfl, rfl⟩ | ⟨rfl, rfl, rfl⟩
    · simp only [if_pos hc, true_and]
      exact w2
    · simp only [if_neg (not_lt.2 hc.le), true_and]
      intro hsb
      obtain ⟨y1, y2⟩ := swap_pos (h.joined d hd) hsb
      obtain ⟨x1, x2⟩ := w2 hsb
      exact ⟨x1.trans y1, x2.trans y2⟩
  obtain ⟨g1, g2, g3⟩ := hlo
  rw [g1, g2]
  refine ⟨hp, hq, lA, lB, kt, kr', l1, l2, hkt, hpen', fun v => ?_⟩
  rw [he v]
  by_cases hsb : d.func = "SB"
  · rw [hsb, if_pos rfl, w1 hsb, ht1, ht2]
    exact springs_SB ..
  · rw [if_neg hsb, (g3 hsb).1, (g3 hsb).2, hkr' hsb]

end

end Verif

import Verif.Proofs.ExchangeAll
import Verif.Props.C89
import Verif.Spec.MirrorAll

/-!
# Lemmas on mirrored assemblies
-/

set_option linter.unusedSectionVars false

namespace Verif

open Model Spec

/-- Mirrored amplitudes of one panel. -/
noncomputable def mir (g : Facing) (m n s : ℕ) (c : ℕ → ℝ) (k : ℕ) : ℝ :=
  overNo g.Z m n s k * turn g.X g.Y m n s c k

theorem dSign_split (g : Facing) {α : ℕ} (hα : α < 3) :
    (dSign g α : ℝ) = (if α = 2 then sgn g.Z else 1) * uSign g.X g.Y α := by
  interval_cases α <;> simp [dSign, uSign]

theorem dSign_sq (g : Facing) (α : ℕ) : (dSign g α : ℝ) * dSign g α = 1 := by
  unfold dSign
  split <;> exact sgn_sq _

/-! ## Numbers -/

section
variable {g : ℕ → Facing} {m n start : ℕ → ℕ} {c : ℕ}

theorem twinNo_in {X Y : Bool} {m n s k : ℕ} (hm : X = true → 4 ≤ m) (hn : Y = true → 4 ≤ n)
    (h : s ≤ k ∧ k < s + 3 * (m * n)) :
    s ≤ twinNo X Y m n s k ∧ twinNo X Y m n s k < s + 3 * (m * n) := by
  obtain ⟨i, hi, j, hj, α, hα, rfl⟩ := exists_number (Finset.mem_Ico.2 h)
  unfold Spec.number
  rw [twinNo_number X Y hi hj hα]
  have := number_lt (s := s) (twin_lt hm hi) (twin_lt hn hj) hα
  exact ⟨by omega, this⟩

/-- In every block only the panel of that block matters. -/
theorem mirNo_block (hm : ∀ p < c, ((g p).X = true → 4 ≤ m p) ∧ ((g p).Y = true → 4 ≤ n p))
    (hs : ∀ p q, p < q → q < c → start p + 3 * (m p * n p) ≤ start q) {p k : ℕ} (hp : p < c)
    (hk : start p ≤ k ∧ k < start p + 3 * (m p * n p)) :
    mirNo g m n start c k = twinNo (g p).X (g p).Y (m p) (n p) (start p) k := by
  have key : ∀ c' ≤ c, mirNo g m n start c' k
      = if p < c' then twinNo (g p).X (g p).Y (m p) (n p) (start p) k else k := by
    intro c' hc
    induction c' with
    | zero => simp [mirNo]
    | succ c' ih =>
      rw [mirNo, ih (by omega)]
      have hin := twinNo_in (hm p hp).1 (hm p hp).2 hk
      rcases lt_trichotomy p c' with h | rfl | h
      · rw [if_pos h, if_pos (by omega)]
        conv_lhs => rw [twinNo]
        rw [if_neg]
        have := hs p c' h (by omega)
        omega
      · rw [if_neg (lt_irrefl _), if_pos (by omega)]
      · rw [if_neg (by omega), if_neg (by omega), twinNo, if_neg]
        have := hs c' p h hp
        omega
  rw [key c le_rfl, if_pos hp]

theorem mirNo_off {k : ℕ} (hk : ∀ p < c, ¬ (start p ≤ k ∧ k < start p + 3 * (m p * n p))) :
    mirNo g m n start c k = k := by
  induction c with
  | zero => rfl
  | succ c ih =>
    rw [mirNo, ih fun p hp => hk p (by omega), twinNo, if_neg (hk c (by omega))]

theorem mirNo_mirNo (hm : ∀ p < c, ((g p).X = true → 4 ≤ m p) ∧ ((g p).Y = true → 4 ≤ n p))
    (hs : ∀ p q, p < q → q < c → start p + 3 * (m p * n p) ≤ start q) (k : ℕ) :
    mirNo g m n start c (mirNo g m n start c k) = k := by
  by_cases hk : ∃ p < c, start p ≤ k ∧ k < start p + 3 * (m p * n p)
  · obtain ⟨p, hp, hk⟩ := hk
    rw [mirNo_block hm hs hp hk, mirNo_block hm hs hp (twinNo_in (hm p hp).1 (hm p hp).2 hk),
      twinNo_twinNo _ _ (hm p hp).1 (hm p hp).2]
  · have := fun p hp h => hk ⟨p, hp, h⟩
    rw [mirNo_off this, mirNo_off this]

theorem overNo_off {Z : Bool} {m n s k : ℕ} (hk : ¬ (s ≤ k ∧ k < s + 3 * (m * n))) :
    (overNo Z m n s k : ℝ) = 1 := if_neg fun h => hk h.1

theorem signNo_off {X Y : Bool} {m n s k : ℕ} (hk : ¬ (s ≤ k ∧ k < s + 3 * (m * n))) :
    (signNo X Y m n s k : ℝ) = 1 := if_neg hk

theorem mirSign_block (hs : ∀ p q, p < q → q < c → start p + 3 * (m p * n p) ≤ start q) {p k : ℕ} (hp : p < c)
    (hk : start p ≤ k ∧ k < start p + 3 * (m p * n p)) :
    (mirSign g m n start c k : ℝ) = overNo (g p).Z (m p) (n p) (start p) k *
      signNo (g p).X (g p).Y (m p) (n p) (start p) k := by
  have key : ∀ c' ≤ c, (mirSign g m n start c' k : ℝ) = if p < c' then
      overNo (g p).Z (m p) (n p) (start p) k * signNo (g p).X (g p).Y (m p) (n p) (start p) k else 1 := by
    intro c' hc
    induction c' with
    | zero => simp [mirSign]
    | succ c' ih =>
      rw [mirSign, ih (by omega)]
      rcases lt_trichotomy p c' with h | rfl | h
      · have : ¬ (start c' ≤ k ∧ k < start c' + 3 * (m c' * n c')) := by
          have := hs p c' h (by omega)
          omega
        rw [if_pos h, if_pos (by omega), overNo_off this, signNo_off this, mul_one, mul_one]
      · rw [if_neg (lt_irrefl _), if_pos (by omega), one_mul]
      · have : ¬ (start c' ≤ k ∧ k < start c' + 3 * (m c' * n c')) := by
          have := hs c' p h hp
          omega
        rw [if_neg (by omega), if_neg (by omega), overNo_off this, signNo_off this, mul_one, mul_one]
  rw [key c le_rfl, if_pos hp]

theorem overNo_sq (Z : Bool) (m n s k : ℕ) : (overNo Z m n s k : ℝ) * overNo Z m n s k = 1 := by
  unfold overNo
  split
  · exact sgn_sq _
  · exact one_mul 1

theorem mirSign_sq (hm : ∀ p < c, ((g p).X = true → 4 ≤ m p) ∧ ((g p).Y = true → 4 ≤ n p)) (k : ℕ) :
    (mirSign g m n start c k : ℝ) * mirSign g m n start c k = 1 := by
  induction c with
  | zero => exact one_mul 1
  | succ c ih =>
    have h1 := ih fun p hp => hm p (by omega)
    have h2 := overNo_sq (g c).Z (m c) (n c) (start c) k
    have h3 := signNo_sq (K := ℝ) (g c).X (g c).Y (hm c (by omega)).1 (hm c (by omega)).2 (s := start c) k
    rw [mirSign]
    generalize (mirSign g m n start c k : ℝ) = x at *
    generalize (overNo (g c).Z (m c) (n c) (start c) k : ℝ) = y at *
    generalize (signNo (g c).X (g c).Y (m c) (n c) (start c) k : ℝ) = z at *
    calc _ = (x * x) * (y * y) * (z * z) := by ring
      _ = 1 := by rw [h1, h2, h3]; ring

end

/-! ## Fields of one panel -/

section
variable {S : Shape ℝ} {g : Facing} {P P' : Panel ℝ}

theorem disp_over (Z : Bool) (P : Panel ℝ) (s : ℕ) (c : ℕ → ℝ) {α : ℕ} (hα : α < 3) (p q : ℕ) (ξ η : ℝ) :
    disp S P s (fun k => overNo Z P.m P.n s k * c k) α p q ξ η
      = (if α = 2 then sgn Z else 1) * disp S P s c α p q ξ η := by
  have hc : ∀ r : ℝ, disp S P s (fun k => r * c k) α p q ξ η = r * disp S P s c α p q ξ η := fun r => by
    unfold disp
    simp only [Finset.mul_sum]
    refine Finset.sum_congr rfl fun i _ => Finset.sum_congr rfl fun j _ => by ring
  rw [← hc]
  unfold disp
  refine congrArg _ (Finset.sum_congr rfl fun i hi => Finset.sum_congr rfl fun j hj => ?_)
  have hi := Finset.mem_range.1 hi
  have hj := Finset.mem_range.1 hj
  have h1 := (split_number (s := s) (j := j) hi hα).1
  have e : (overNo Z P.m P.n s (s + 3 * (j * P.m + i) + α) : ℝ) = if α = 2 then sgn Z else 1 := by
    have hb : s ≤ s + 3 * (j * P.m + i) + α ∧ s + 3 * (j * P.m + i) + α < s + 3 * (P.m * P.n) :=
      ⟨by omega, number_lt hi hj hα⟩
    unfold overNo
    rw [h1]
    simp only [hb, and_self, true_and]
  simp only [e]

variable (hE : S.Even) (h : Turned g.X g.Y P P') (hm : g.X = true → 4 ≤ P.m) (hn : g.Y = true → 4 ≤ P.n)
  (ha : P.a ≠ 0) (hb : P.b ≠ 0)

include hE h hm hn ha hb

theorem disp_mir (s : ℕ) (c : ℕ → ℝ) {α : ℕ} (hα : α < 3) {p q : ℕ} (hp : p ≤ 2) (hq : q ≤ 2) (x y : ℝ) :
    disp S P' s (mir g P.m P.n s c) α p q (2 / P'.a * across g.X P.a x - 1) (2 / P'.b * across g.Y P.b y - 1)
      = dSign g α * sgn g.X ^ p * sgn g.Y ^ q * disp S P s c α p q (2 / P.a * x - 1) (2 / P.b * y - 1) := by
  have e := disp_over (S := S) g.Z P' s (turn g.X g.Y P.m P.n s c) hα p q
    (2 / P'.a * across g.X P.a x - 1) (2 / P'.b * across g.Y P.b y - 1)
  rw [h.m, h.n] at e
  refine e.trans ?_
  rw [disp_across hE h hm hn ha hb s c hα hp hq x y, dSign_split g hα]
  ring

theorem u_mir (s : ℕ) (c : ℕ → ℝ) {α : ℕ} (hα : α < 3) (x y : ℝ) :
    u S P' s (mir g P.m P.n s c) α (across g.X P.a x) (across g.Y P.b y) = dSign g α * u S P s c α x y := by
  rw [u_disp, u_disp, disp_mir hE h hm hn ha hb s c hα (by omega) (by omega)]
  simp

theorem dx_mir (hS : S.C2) (s : ℕ) (c : ℕ → ℝ) {α : ℕ} (hα : α < 3) (x y : ℝ) :
    dx (u S P' s (mir g P.m P.n s c) α) (across g.X P.a x) (across g.Y P.b y)
      = dSign g α * sgn g.X * dx (u S P s c α) x y := by
  rw [u_dx hS, u_dx hS, disp_mir hE h hm hn ha hb s c hα (by omega) (by omega)]
  simp

theorem dy_mir (hS : S.C2) (s : ℕ) (c : ℕ → ℝ) {α : ℕ} (hα : α < 3) (x y : ℝ) :
    dy (u S P' s (mir g P.m P.n s c) α) (across g.X P.a x) (across g.Y P.b y)
      = dSign g α * sgn g.Y * dy (u S P s c α) x y := by
  rw [u_dy hS, u_dy hS, disp_mir hE h hm hn ha hb s c hα (by omega) (by omega)]
  simp

theorem lin_mir (κ : ℝ) (hκ : g.Z = true → κ = 0) (s0 : ℕ) (c : ℕ → ℝ) {s : ℕ} (hs : s < 6) (x y : ℝ) :
    lin κ S P' s0 (mir g P.m P.n s0 c) s (across g.X P.a x) (across g.Y P.b y)
      = kSign g s * lin κ S P s0 c s x y := by
  have hd := fun {α p q} (hα : α < 3) (hp : p ≤ 2) (hq : q ≤ 2) =>
    disp_mir hE h hm hn ha hb s0 c (α := α) (p := p) (q := q) hα hp hq x y
  have h1 := sgn_sq (K := ℝ) g.X
  have h2 := sgn_sq (K := ℝ) g.Y
  have h3 : κ * sgn g.Z = κ := by
    cases hz : g.Z
    · simp [sgn]
    · rw [hκ hz, zero_mul]
  interval_cases s <;> simp only [lin] <;>
    simp only [hd (α := 0) (p := 1) (q := 0) (by omega) (by omega) (by omega),
      hd (α := 1) (p := 0) (q := 1) (by omega) (by omega) (by omega),
      hd (α := 2) (p := 0) (q := 0) (by omega) (by omega) (by omega),
      hd (α := 0) (p := 0) (q := 1) (by omega) (by omega) (by omega),
      hd (α := 1) (p := 1) (q := 0) (by omega) (by omega) (by omega),
      hd (α := 2) (p := 2) (q := 0) (by omega) (by omega) (by omega),
      hd (α := 2) (p := 0) (q := 2) (by omega) (by omega) (by omega),
      hd (α := 2) (p := 1) (q := 1) (by omega) (by omega) (by omega), dSign, kSign, eSign, pow_two, pow_one,
      pow_zero, mul_one, one_mul, h1, h2, Nat.reduceLT, if_true, if_false]
  · linear_combination (disp S P s0 c 2 0 0 (2 / P.a * x - 1) (2 / P.b * y - 1)) * h3
  all_goals ring

theorem dens_mir (F : ℕ → ℕ → ℝ) {e e' : ℕ → ℝ} (h : ∀ s < 6, e' s = kSign g s * e s) :
    Spec.dens 6 (mirLam g F) e' = Spec.dens 6 F e := by
  have sq : ∀ s, (kSign g s : ℝ) * kSign g s = 1 := fun s => by
    have h1 := eSign_sq (K := ℝ) g.X g.Y s
    have h2 := sgn_sq (K := ℝ) g.Z
    unfold kSign
    split
    · rw [mul_one]; exact h1
    · linear_combination (sgn g.Z * sgn g.Z : ℝ) * h1 + h2
  unfold Spec.dens
  refine Finset.sum_congr rfl fun s hs => Finset.sum_congr rfl fun t ht => ?_
  rw [h s (Finset.mem_range.1 hs), h t (Finset.mem_range.1 ht), mirLam]
  calc _ = ((kSign g s : ℝ) * kSign g s) * (kSign g t * kSign g t) * (F s t * e s * e t) := by ring
    _ = _ := by rw [sq, sq]; ring

theorem strainWork_mir (hS : S.C2) (hr : g.Z = true → P.r = 0) (F : ℕ → ℕ → ℝ) (c : ℕ → ℝ) :
    strainWork S P' (mirLam g F) (mir g P.m P.n 0 c) = strainWork S P F c := by
  unfold strainWork
  simp only [linStrain_lin hS]
  rw [h.a, h.b, h.r]
  refine C89.integral_turn (X := g.X) (Y := g.Y) P.a P.b fun x y => ?_
  refine dens_mir hE h hm hn ha hb F fun j hj => ?_
  exact lin_mir hE h hm hn ha hb _ (fun hz => by rw [hr hz, div_zero]) 0 c hj x y

theorem slopeWork_mir (hS : S.C2) (N1 N2 N3 : ℝ) (c : ℕ → ℝ) :
    slopeWork S P' N1 N2 (sgn g.X * sgn g.Y * N3) (mir g P.m P.n 0 c) = slopeWork S P N1 N2 N3 c := by
  have h1 := sgn_sq (K := ℝ) g.X
  have h2 := sgn_sq (K := ℝ) g.Y
  have h3 := sgn_sq (K := ℝ) g.Z
  unfold slopeWork
  rw [h.a, h.b]
  refine C89.integral_turn (X := g.X) (Y := g.Y) P.a P.b fun x y => ?_
  rw [dx_mir hE h hm hn ha hb hS 0 c (by omega), dy_mir hE h hm hn ha hb hS 0 c (by omega)]
  simp only [dSign]
  generalize dx (u S P 0 c 2) x y = wx
  generalize dy (u S P 0 c 2) x y = wy
  generalize (sgn g.X : ℝ) = a at *
  generalize (sgn g.Y : ℝ) = b at *
  generalize (sgn g.Z : ℝ) = d at *
  calc _ = (d * d) * (N1 * (a * a) * wx ^ 2 + 2 * N3 * ((a * a) * (b * b)) * (wx * wy)
        + N2 * (b * b) * wy ^ 2) := by ring
    _ = _ := by rw [h1, h2, h3]; ring

theorem kineticWork_mir (hS : S.C2) (rho t off : ℝ) (c : ℕ → ℝ) :
    kineticWork S P' rho t (sgn g.Z * off) (mir g P.m P.n 0 c) = kineticWork S P rho t off c := by
  have h1 := sgn_sq (K := ℝ) g.X
  have h2 := sgn_sq (K := ℝ) g.Y
  have h3 := sgn_sq (K := ℝ) g.Z
  unfold kineticWork
  rw [h.a, h.b]
  refine C89.integral_turn (X := g.X) (Y := g.Y) P.a P.b fun x y => ?_
  unfold C20.kinetic
  rw [dx_mir hE h hm hn ha hb hS 0 c (by omega), dy_mir hE h hm hn ha hb hS 0 c (by omega),
    u_mir hE h hm hn ha hb 0 c (by omega), u_mir hE h hm hn ha hb 0 c (by omega),
    u_mir hE h hm hn ha hb 0 c (by omega)]
  simp only [dSign]
  generalize dx (u S P 0 c 2) x y = wx
  generalize dy (u S P 0 c 2) x y = wy
  generalize u S P 0 c 0 x y = U
  generalize u S P 0 c 1 x y = V
  generalize u S P 0 c 2 x y = W
  generalize (sgn g.X : ℝ) = a at *
  generalize (sgn g.Y : ℝ) = b at *
  generalize (sgn g.Z : ℝ) = d at *
  calc _ = rho * t * ((a * a) * (U + (d * d) * off * wx) ^ 2 + (b * b) * (V + (d * d) * off * wy) ^ 2
        + (d * d) * W ^ 2 + 0.0833333333333333 * t ^ 2 * ((d * d) * (a * a) * wx ^ 2
          + (d * d) * (b * b) * wy ^ 2)) := by ring
    _ = _ := by rw [h1, h2, h3]; ring

end

theorem mirLam_sym {F : ℕ → ℕ → ℝ} (hF : ABDSym F) (g : Facing) : ABDSym (mirLam g F) := by
  refine ⟨fun s t => ?_, ?_, ?_, ?_⟩
  · simp only [mirLam, hF.symm s t]; ring
  · simp only [mirLam, hF.b12, kSign, eSign]; norm_num
  · simp only [mirLam, hF.b16, kSign, eSign]; norm_num
  · simp only [mirLam, hF.b26, kSign, eSign]; norm_num

/-! ## Energy of one joint -/

/-- Displacements and slopes of a mirrored panel. -/
structure Image (g : Facing) (a b : ℝ) (f f' : ℕ → ℝ → ℝ → ℝ) : Prop where
  disp : ∀ α < 3, ∀ x y, f' α (across g.X a x) (across g.Y b y) = dSign g α * f α x y
  dx : ∀ x y, dx (f' 2) (across g.X a x) (across g.Y b y) = sgn g.Z * sgn g.X * dx (f 2) x y
  dy : ∀ x y, dy (f' 2) (across g.X a x) (across g.Y b y) = sgn g.Z * sgn g.Y * dy (f 2) x y

theorem across_scale (b : Bool) {l1 : ℝ} (h1 : l1 ≠ 0) (l2 t : ℝ) :
    l2 / l1 * across b l1 t = across b l2 (l2 / l1 * t) := by
  cases b
  · rfl
  · simp only [across, if_true]
    field_simp

theorem springs_mir {S : Shape ℝ} {P1 P2 P1' P2' : Panel ℝ} {g1 g2 : Facing} (h1 : Turned g1.X g1.Y P1 P1')
    (h2 : Turned g2.X g2.Y P2 P2') (ha : P1.a ≠ 0) (hb : P1.b ≠ 0) {a b : ℕ} {v v' : ℕ → ℝ}
    (e1 : Image g1 P1.a P1.b (u S P1 a v) (u S P1' a v'))
    (e2 : Image g2 P2.a P2.b (u S P2 b v) (u S P2' b v')) {f : String}
    (hf : f = "SSxcte" ∨ f = "SSycte" ∨ f = "BFxcte" ∨ f = "BFycte" ∨ f = "SB") (hp : SamePlane f g1 g2)
    (kt kr z1 z2 : ℝ) :
    C40.springs S P1' P2' a b v' f kt kr
        (if f = "SSxcte" ∨ f = "BFxcte" then across g1.X P1.a z1 else
          if f = "SB" then z1 else across g1.Y P1.b z1)
        (if f = "SSxcte" ∨ f = "BFxcte" then across g2.X P2.a z2 else across g2.Y P2.b z2)
      = C40.springs S P1 P2 a b v f kt kr z1 z2 := by
  obtain ⟨X1, Y1, Z1⟩ := g1
  obtain ⟨X2, Y2, Z2⟩ := g2
  have sX := sgn_sq (K := ℝ) X1
  have sY := sgn_sq (K := ℝ) Y1
  have sZ := sgn_sq (K := ℝ) Z1
  have a0 := e1.disp 0 (by omega)
  have a1 := e1.disp 1 (by omega)
  have a2 := e1.disp 2 (by omega)
  have b0 := e2.disp 0 (by omega)
  have b1 := e2.disp 1 (by omega)
  have b2 := e2.disp 2 (by omega)
  have a3 := e1.dx
  have b3 := e2.dx
  have a4 := e1.dy
  have b4 := e2.dy
  simp only [dSign] at a0 a1 a2 b0 b1 b2 a3 b3 a4 b4
  rcases hf with rfl | rfl | rfl | rfl | rfl <;>
    simp only [SamePlane, String.reduceEq, if_false, if_true] at hp
  · obtain ⟨rfl, rfl, rfl⟩ := hp
    simp only [C40.springs, jointEnergy, String.reduceEq, if_true, true_or, h1.b, h2.b]
    rw [← C89.integral_across Y1 P1.b]
    refine intervalIntegral.integral_congr fun t _ => ?_
    simp only [across_scale Y1 hb, a0, a1, a2, a3, b0, b1, b2, b3]
    generalize u S P1 a v 0 z1 t = p0
    generalize u S P1 a v 1 z1 t = p1
    generalize u S P1 a v 2 z1 t = p2
    generalize dx (u S P1 a v 2) z1 t = p3
    generalize u S P2 b v 0 z2 (P2.b / P1.b * t) = q0
    generalize u S P2 b v 1 z2 (P2.b / P1.b * t) = q1
    generalize u S P2 b v 2 z2 (P2.b / P1.b * t) = q2
    generalize dx (u S P2 b v 2) z2 (P2.b / P1.b * t) = q3
    linear_combination kt * (p0 - q0) ^ 2 * sX + kt * (p1 - q1) ^ 2 * sY + kt * (p2 - q2) ^ 2 * sZ
      + kr * (p3 - q3) ^ 2 * (sX + sgn X1 * sgn X1 * sZ)
  · obtain ⟨rfl, rfl, rfl⟩ := hp
    simp only [C40.springs, jointEnergy, String.reduceEq, if_true, if_false, or_self, h1.a, h2.a]
    rw [← C89.integral_across X1 P1.a]
    refine intervalIntegral.integral_congr fun t _ => ?_
    simp only [across_scale X1 ha, a0, a1, a2, a4, b0, b1, b2, b4]
    generalize u S P1 a v 0 t z1 = p0
    generalize u S P1 a v 1 t z1 = p1
    generalize u S P1 a v 2 t z1 = p2
    generalize dy (u S P1 a v 2) t z1 = p3
    generalize u S P2 b v 0 (P2.a / P1.a * t) z2 = q0
    generalize u S P2 b v 1 (P2.a / P1.a * t) z2 = q1
    generalize u S P2 b v 2 (P2.a / P1.a * t) z2 = q2
    generalize dy (u S P2 b v 2) (P2.a / P1.a * t) z2 = q3
    linear_combination kt * (p0 - q0) ^ 2 * sX + kt * (p1 - q1) ^ 2 * sY + kt * (p2 - q2) ^ 2 * sZ
      + kr * (p3 - q3) ^ 2 * (sY + sgn Y1 * sgn Y1 * sZ)
  · obtain ⟨rfl, rfl, rfl⟩ := hp
    simp only [C40.springs, jointEnergy, String.reduceEq, if_true, if_false, or_true, h1.b, h2.b]
    rw [← C89.integral_across Y1 P1.b]
    refine intervalIntegral.integral_congr fun t _ => ?_
    simp only [across_scale Y1 hb, a0, a1, a2, a3, b0, b1, b2, b3]
    generalize u S P1 a v 0 z1 t = p0
    generalize u S P1 a v 1 z1 t = p1
    generalize u S P1 a v 2 z1 t = p2
    generalize dx (u S P1 a v 2) z1 t = p3
    generalize u S P2 b v 0 z2 (P2.b / P1.b * t) = q0
    generalize u S P2 b v 1 z2 (P2.b / P1.b * t) = q1
    generalize u S P2 b v 2 z2 (P2.b / P1.b * t) = q2
    generalize dx (u S P2 b v 2) z2 (P2.b / P1.b * t) = q3
    linear_combination kt * (p0 - q2) ^ 2 * sX + kt * (p1 - q1) ^ 2 * sY + kt * (p2 + q0) ^ 2 * sZ
      + kr * (p3 - q3) ^ 2 * (sX + sgn X1 * sgn X1 * sZ)
  · obtain ⟨rfl, rfl, rfl⟩ := hp
    simp only [C40.springs, jointEnergy, String.reduceEq, if_true, if_false, or_self, h1.a, h2.a]
    rw [← C89.integral_across X1 P1.a]
    refine intervalIntegral.integral_congr fun t _ => ?_
    simp only [across_scale X1 ha, a0, a1, a2, a4, b0, b1, b2, b4]
    generalize u S P1 a v 0 t z1 = p0
    generalize u S P1 a v 1 t z1 = p1
    generalize u S P1 a v 2 t z1 = p2
    generalize dy (u S P1 a v 2) t z1 = p3
    generalize u S P2 b v 0 (P2.a / P1.a * t) z2 = q0
    generalize u S P2 b v 1 (P2.a / P1.a * t) z2 = q1
    generalize u S P2 b v 2 (P2.a / P1.a * t) z2 = q2
    generalize dy (u S P2 b v 2) (P2.a / P1.a * t) z2 = q3
    linear_combination kt * (p0 - q0) ^ 2 * sX + kt * (p1 - q2) ^ 2 * sY + kt * (p2 + q1) ^ 2 * sZ
      + kr * (p3 - q3) ^ 2 * (sY + sgn Y1 * sgn Y1 * sZ)
  · obtain ⟨rfl, rfl, rfl, rfl⟩ := hp
    simp only [C40.springs, areaEnergy, String.reduceEq, if_true, if_false, or_self, h1.a, h2.a, h1.b, h2.b]
    refine C89.integral_turn (X := X1) (Y := Y1) P1.a P1.b fun x y => ?_
    have hz : (sgn false : ℝ) = 1 := rfl
    simp only [across_scale X1 ha, across_scale Y1 hb, a0, a1, a2, a3, a4, b0, b1, b2, hz]
    generalize u S P1 a v 0 x y = p0
    generalize u S P1 a v 1 x y = p1
    generalize u S P1 a v 2 x y = p2
    generalize dx (u S P1 a v 2) x y = p3
    generalize dy (u S P1 a v 2) x y = p4
    generalize u S P2 b v 0 (P2.a / P1.a * x) (P2.b / P1.b * y) = q0
    generalize u S P2 b v 1 (P2.a / P1.a * x) (P2.b / P1.b * y) = q1
    generalize u S P2 b v 2 (P2.a / P1.a * x) (P2.b / P1.b * y) = q2
    linear_combination kt * (p0 + z1 * p3 - q0) ^ 2 * sX + kt * (p1 + z1 * p4 - q1) ^ 2 * sY

/-! ## Loads -/

theorem over_point (Z : Bool) {U U' : ℕ → ℝ → ℝ → ℝ}
    (hU : ∀ α < 3, ∀ x y, U' α x y = (if α = 2 then sgn Z else 1) * U α x y) (l : PLoad ℝ) :
    pointWork U' (overPoint Z l) = pointWork U l := by
  have s := sgn_sq (K := ℝ) Z
  simp only [pointWork, overPoint, hU 0 (by omega), hU 1 (by omega), hU 2 (by omega)]
  norm_num
  linear_combination (l.fz * U 2 l.x l.y) * s

theorem over_distr (Z : Bool) {G : GaussTab ℝ} {P : Panel ℝ} {U U' : ℕ → ℝ → ℝ → ℝ}
    (hU : ∀ α < 3, ∀ x y, U' α x y = (if α = 2 then sgn Z else 1) * U α x y) (l : DLoad ℝ) :
    distrWork G P U' (overLine Z l) = distrWork G P U l := by
  have s := sgn_sq (K := ℝ) Z
  obtain ⟨x, y, fx, fy, fz⟩ := l
  have hc : ∀ t, comp (fz.map fun f s => (sgn Z : ℝ) * f s) t = sgn Z * comp fz t := fun t =>
    C89.comp_turn fz _ _ t
  cases x <;> cases y <;> simp only [distrWork, overLine]
  · refine congrArg _ (funext fun t => ?_)
    simp only [hc, hU 0 (by omega), hU 1 (by omega), hU 2 (by omega)]
    norm_num
    linear_combination (comp fz t * U 2 t _) * s
  · refine congrArg _ (funext fun t => ?_)
    simp only [hc, hU 0 (by omega), hU 1 (by omega), hU 2 (by omega)]
    norm_num
    linear_combination (comp fz t * U 2 _ t) * s

theorem over_loads {E : Env ℝ} {P : Panel ℝ} (Z : Bool) (L : Loads ℝ) (inc : ℝ) (s : ℕ) (c : ℕ → ℝ) :
    C67.loadWork E P (overLoads Z L) inc s (fun k => overNo Z P.m P.n s k * c k)
      = C67.loadWork E P L inc s c := by
  have hU : ∀ α < 3, ∀ x y, Spec.field E.S P s (fun k => overNo Z P.m P.n s k * c k) α x y
      = (if α = 2 then sgn Z else 1) * Spec.field E.S P s c α x y := fun α hα x y =>
    disp_over Z P s c hα 0 0 _ _
  have hp := over_point Z hU
  have hd := over_distr Z (G := E.G) (P := P) hU
  unfold C67.loadWork constWork incWork overLoads
  simp only [C89.sum_turn _ _ _ hp, C89.sum_turn _ _ _ hd]

theorem mirLoads_wf {L : Loads ℝ} (hL : WellFormed L) (g : Facing) (a b : ℝ) :
    WellFormed (mirLoads g a b L) := by
  have h := C89.turnLoads_wf (X := g.X) (Y := g.Y) hL a b
  intro l hl
  simp only [mirLoads, overLoads, ← List.map_append] at hl
  obtain ⟨l', hl', rfl⟩ := List.mem_map.1 hl
  exact h l' hl'

theorem mir_loads {E : Env ℝ} {g : Facing} {P P' : Panel ℝ} (hE : E.S.Even) (h : Turned g.X g.Y P P')
    (hm : g.X = true → 4 ≤ P.m) (hn : g.Y = true → 4 ≤ P.n) (hx : g.X = true → E.G.Even P.m)
    (hy : g.Y = true → E.G.Even P.n) (ha : P.a ≠ 0) (hb : P.b ≠ 0) (L : Loads ℝ) (inc : ℝ) (s : ℕ)
    (c : ℕ → ℝ) : C67.loadWork E P' (mirLoads g P.a P.b L) inc s (mir g P.m P.n s c)
      = C67.loadWork E P L inc s c := by
  have e := over_loads (E := E) (P := P') g.Z (turnLoads g.X g.Y P.a P.b L) inc s
    (turn g.X g.Y P.m P.n s c)
  rw [h.m, h.n] at e
  exact e.trans (C89.load_work hE h hm hn hx hy ha hb L inc s c)

end Verif

import Verif.Proofs.MirBay
import Verif.Props.C84

/-!
# C102: a bay behaves as its mirror image

A stiffened bay and its mirror image (`Spec/MirBay.lean`): the same matrices up to the order and the signs of the
amplitudes, the same frequencies and buckling loads, mirrored displacements of skin and flanges.

Missing, see the end of the file: mirrored across its stiffeners a bay keeps its stiffness only where the code
treats both sides alike.  The springs of a flange without base are taken from one of the two panels next to it, and
the coupling `S1` of a 1D stiffener does not change sign (`C84`).
-/

set_option linter.unusedSectionVars false

namespace Verif.C102

open Finset Spec Model Indep C80 C81

variable {E : BayEnv ℝ} {X Y : Bool} {B B' R R' : Bay ℝ} {N N' : ℕ}

/-! ## Numbers -/

/-- The numbers of the mirrored bay. -/
noncomputable def num (X Y : Bool) (R : Bay ℝ) (k : ℕ) : ℕ :=
  mirNo (bayFace X Y) (fun p => (bayPanel R p).m) (fun p => (bayPanel R p).n) (bayStart R) (R.blade2.length + 1) k

/-- Their signs. -/
noncomputable def sign (X Y : Bool) (R : Bay ℝ) (k : ℕ) : ℝ :=
  mirSign (bayFace X Y) (fun p => (bayPanel R p).m) (fun p => (bayPanel R p).n) (bayStart R) (R.blade2.length + 1) k

/-- Entry by entry the same matrix, with the numbers and signs of the mirrored bay. -/
def Mirrored (X Y : Bool) (R : Bay ℝ) (L L' : Coo ℝ) : Prop :=
  ∀ k l, Coo.entry L' k l = sign X Y R k * sign X Y R l * Coo.entry L (num X Y R k) (num X Y R l)

/-- A bay with its flanges, with enough terms along the mirrored axes. -/
structure Enough (X Y : Bool) (R : Bay ℝ) : Prop where
  flange : ∀ s ∈ R.blade2, ∃ f, s.flange = some f
  skin : (X = true → 4 ≤ R.skin.m) ∧ (Y = true → 4 ≤ R.skin.n)
  terms : ∀ s ∈ R.blade2, ∀ f, s.flange = some f → X = true → 4 ≤ f.pan.m

theorem at_flange (h : Enough X Y R) {i : ℕ} (hi : i < R.blade2.length) :
    ∃ s f, R.blade2[i]? = some s ∧ s ∈ R.blade2 ∧ s.flange = some f ∧ bayPanel R (i + 1) = f.panel ∧
      C52.start R (i + 1) = C52.start R i + 3 * f.pan.m * f.pan.n := by
  have hs := List.getElem?_eq_getElem hi
  obtain ⟨f, hf⟩ := h.flange _ (List.mem_of_getElem? hs)
  refine ⟨_, f, hs, List.mem_of_getElem? hs, hf, by simp [bayPanel, flangePanel, hs, hf], ?_⟩
  rw [C52.start_succ R hs]
  unfold C52.width
  rw [hf]

theorem many (h : Enough X Y R) : ∀ p < R.blade2.length + 1,
    ((bayFace X Y p).X = true → 4 ≤ (bayPanel R p).m) ∧ ((bayFace X Y p).Y = true → 4 ≤ (bayPanel R p).n) := by
  intro p hp
  cases p with
  | zero => exact h.skin
  | succ i =>
    obtain ⟨s, f, -, hs, hf, e, -⟩ := at_flange h (Nat.lt_of_succ_lt_succ hp)
    rw [e]
    exact ⟨h.terms s hs f hf, fun hc => by cases hc⟩

theorem start_sep (h : Enough X Y R) (p q : ℕ) (hpq : p < q) (hq : q < R.blade2.length + 1) :
    bayStart R p + 3 * ((bayPanel R p).m * (bayPanel R p).n) ≤ bayStart R q := by
  obtain ⟨j, rfl⟩ : ∃ j, q = j + 1 := ⟨q - 1, by omega⟩
  rw [bayStart_succ, ← mul_assoc]
  cases p with
  | zero =>
    show 0 + 3 * R.skin.m * R.skin.n ≤ _
    rw [Nat.zero_add]
    exact C101.after_skin R j
  | succ i =>
    obtain ⟨s, f, -, -, -, e, e'⟩ := at_flange h (i := i) (by omega)
    rw [bayStart_succ, e]
    have := C52.start_mono R (show i + 1 ≤ j by omega)
    rw [e'] at this
    exact this

section
variable (h : Enough X Y R)
include h

theorem num_num : Function.Involutive (num X Y R) := fun k => mirNo_mirNo (many h) (start_sep h) k

theorem sign_sq (k : ℕ) : sign X Y R k * sign X Y R k = 1 := mirSign_sq (many h) k

/-- The numbers as a permutation. -/
noncomputable def numEquiv : ℕ ≃ ℕ := (num_num h).toPerm

theorem numEquiv_apply (k : ℕ) : numEquiv h k = num X Y R k := rfl

theorem mirrored_iff {L L' : Coo ℝ} : Mirrored X Y R L L' ↔ Signs.Signed (numEquiv h) (sign X Y R) L L' := Iff.rfl

/-- Inside the block of a part. -/
theorem block {p : ℕ} (hp : p < R.blade2.length + 1) (v : ℕ → ℝ) {k : ℕ}
    (hk : k < 3 * (bayPanel R p).m * (bayPanel R p).n) :
    sign X Y R (bayStart R p + k) * v (num X Y R (bayStart R p + k))
      = mir (bayFace X Y p) (bayPanel R p).m (bayPanel R p).n (bayStart R p) v (bayStart R p + k) := by
  have hin : bayStart R p ≤ bayStart R p + k ∧
      bayStart R p + k < bayStart R p + 3 * ((bayPanel R p).m * (bayPanel R p).n) :=
    ⟨by omega, by rw [← mul_assoc]; omega⟩
  have e1 := mirNo_block (m := fun p => (bayPanel R p).m) (n := fun p => (bayPanel R p).n) (many h) (start_sep h) hp hin
  have e2 := mirSign_block (g := bayFace X Y) (m := fun p => (bayPanel R p).m) (n := fun p => (bayPanel R p).n)
    (start_sep h) hp hin
  unfold num sign
  rw [e1, e2, mul_assoc]
  rfl

theorem own_block {p : ℕ} (hp : p < R.blade2.length + 1) (v : ℕ → ℝ) {k : ℕ}
    (hk : k < 3 * (bayPanel R p).m * (bayPanel R p).n) :
    sign X Y R (bayStart R p + k) * v (num X Y R (bayStart R p + k))
      = mir (bayFace X Y p) (bayPanel R p).m (bayPanel R p).n 0 (fun i => v (bayStart R p + i)) k := by
  rw [block h hp v hk, C95.mir_zero _ _ _ _ _ (by rw [← mul_assoc]; exact hk)]

end

/-! ## The parts of the mirrored bay -/

theorem width_eq {E : Env ℝ} {b : ℝ} {s s' : Blade2 ℝ} (h : MirBlade2 E X Y b s s') : C52.width s' = C52.width s := by
  have hf := h.flange
  unfold C52.width
  generalize s.flange = o at hf
  generalize s'.flange = o' at hf
  cases hf with
  | none => rfl
  | some r =>
    obtain ⟨-, t, t', -, -, hx⟩ := r
    have e1 := hx.panel.m
    have e2 := hx.panel.n
    simp only [Shell.panel] at e1 e2
    simp only [e1, e2]

section
variable (hx : MirBay E.toEnv X Y R R')
include hx

theorem count : R'.blade2.length = R.blade2.length := hx.blade2.length_eq.symm

theorem starts (i : ℕ) : C52.start R' i = C52.start R i := by
  have key : ∀ l l' : List (Blade2 ℝ), List.Forall₂ (MirBlade2 E.toEnv X Y R.skin.b) l l' →
      l'.map C52.width = l.map C52.width := by
    intro l l' hl
    induction hl with
    | nil => rfl
    | cons hab _ ih => rw [List.map_cons, List.map_cons, width_eq hab, ih]
  have e1 : R'.skin.m = R.skin.m := hx.skin.m
  have e2 : R'.skin.n = R.skin.n := hx.skin.n
  unfold C52.start
  rw [e1, e2, List.map_take, List.map_take, key _ _ hx.blade2]

theorem starts' (p : ℕ) : bayStart R' p = bayStart R p := by
  cases p with
  | zero => rfl
  | succ i => rw [bayStart_succ, bayStart_succ, starts hx]

theorem enough (hf : ∀ s ∈ R.blade2, ∃ f, s.flange = some f) : Enough X Y R where
  flange := hf
  skin := hx.terms
  terms s hs f e := by
    obtain ⟨s', -, r⟩ := forall₂_mem_left hx.blade2 s hs
    exact r.terms f e

/-- A flange and its image. -/
theorem flange_pair {i : ℕ} {s s' : Blade2 ℝ} {f : Shell ℝ} (hs : R.blade2[i]? = some s)
    (hs' : R'.blade2[i]? = some s') (hf : s.flange = some f) : ∃ f', s'.flange = some f' ∧
      MirShell E.toEnv ⟨X, false, Y⟩ f f' ∧ bayPanel R (i + 1) = f.panel ∧ bayPanel R' (i + 1) = f'.panel := by
  obtain ⟨s0, h0, r⟩ := forall₂_at hx.blade2 hs
  cases hs'.symm.trans h0
  have hr := r.flange
  rw [hf] at hr
  cases hf' : s'.flange with
  | none => rw [hf'] at hr; cases hr
  | some f' =>
    rw [hf'] at hr
    cases hr with
    | some hr =>
      exact ⟨f', rfl, hr, by simp [bayPanel, flangePanel, hs, hf], by simp [bayPanel, flangePanel, hs', hf']⟩

theorem turned (hf : ∀ s ∈ R.blade2, ∃ f, s.flange = some f) {p : ℕ} (hp : p < R.blade2.length + 1) :
    Turned (bayFace X Y p).X (bayFace X Y p).Y (bayPanel R p) (bayPanel R' p) := by
  cases p with
  | zero => exact hx.skin
  | succ i =>
    obtain ⟨s, f, hs, -, hsf, -, -⟩ := at_flange (enough hx hf) (i := i) (by omega)
    obtain ⟨s', hs', r⟩ := forall₂_at hx.blade2 hs
    obtain ⟨f', -, ⟨-, t, t', -, -, r⟩, e1, e2⟩ := flange_pair hx hs hs' hsf
    rw [e1, e2]
    exact r.panel

/-- The displacements and slopes of skin and flanges are mirrored. -/
theorem image (hf : ∀ s ∈ R.blade2, ∃ f, s.flange = some f) {S : Shape ℝ} (hS : S.C2) (hE : S.Even) {p : ℕ}
    (hp : p < R.blade2.length + 1) (ha : (bayPanel R p).a ≠ 0) (hb : (bayPanel R p).b ≠ 0) (v : ℕ → ℝ) :
    Image (bayFace X Y p) (bayPanel R p).a (bayPanel R p).b (u S (bayPanel R p) (bayStart R p) v)
      (u S (bayPanel R' p) (bayStart R p) fun k => sign X Y R k * v (num X Y R k)) := by
  have hN := enough hx hf
  obtain ⟨hm, hn⟩ := many hN p hp
  have ht := turned hx hf hp
  have hu : ∀ α < 3, u S (bayPanel R' p) (bayStart R p) (fun k => sign X Y R k * v (num X Y R k)) α
      = u S (bayPanel R' p) (bayStart R p)
        (mir (bayFace X Y p) (bayPanel R p).m (bayPanel R p).n (bayStart R p) v) α := fun α hα =>
    u_block (fun k hk => by rw [ht.m, ht.n] at hk; exact block hN hp v hk) hα
  refine ⟨fun α hα x y => ?_, fun x y => ?_, fun x y => ?_⟩
  · rw [hu α hα]
    exact u_mir hE ht hm hn ha hb _ v hα x y
  · rw [hu 2 (by omega)]
    exact dx_mir hE ht hm hn ha hb hS _ v (by omega) x y
  · rw [hu 2 (by omega)]
    exact dy_mir hE ht hm hn ha hb hS _ v (by omega) x y

end

/-! ## Matrices -/

section
variable (hx : MirBay E.toEnv X Y R R') (h : SolidBay E B R N) (h' : SolidBay E B' R' N') (hE : E.S.Even)
include hx h h' hE

theorem skin_block (v : ℕ → ℝ) {k : ℕ} (hk : k < 3 * R.skin.m * R.skin.n) :
    sign X Y R k * v (num X Y R k) = mir ⟨X, Y, false⟩ R.skin.m R.skin.n 0 v k := by
  have := own_block (enough hx (C101.flanges h)) (Nat.succ_pos _) v (k := k) hk
  simp only [bayStart, Nat.zero_add] at this
  exact this

/-- A shell in the plane of the skin. -/
theorem in_skin {s : Shell ℝ} {t lam} (hs : Sheet E.toEnv (bayPanel R 0) s t lam) :
    s.pan.a ≠ 0 ∧ s.pan.b ≠ 0 ∧ s.pan.m = R.skin.m ∧ s.pan.n = R.skin.n := by
  obtain ⟨x1, x2, y1, y2, e⟩ := hs.plan
  have em : s.pan.m = R.skin.m := by
    have := congrArg Panel.m e
    exact this
  have en : s.pan.n = R.skin.n := by
    have := congrArg Panel.n e
    exact this
  have := hs.side_ne (show R.skin.a ≠ 0 from h.sides.1.ne') (show R.skin.b ≠ 0 from h.sides.2.ne')
  exact ⟨this.1, this.2, em, en⟩

section
variable {s s' : Shell ℝ} {t lam} (hs : Sheet E.toEnv (bayPanel R 0) s t lam)
  (hm : MirShell E.toEnv ⟨X, Y, false⟩ s s') {q q' : (ℕ → ℝ) → ℝ} (v : ℕ → ℝ)
include hs hm

theorem plane_terms : (X = true → 4 ≤ s.pan.m) ∧ (Y = true → 4 ≤ s.pan.n) ∧
    ∀ k < 3 * s.pan.m * s.pan.n, sign X Y R (0 + k) * v (num X Y R (0 + k))
      = mir ⟨X, Y, false⟩ s.pan.m s.pan.n 0 (fun i => v (0 + i)) k := by
  obtain ⟨-, -, e1, e2⟩ := in_skin hx h h' hE hs
  rw [e1, e2]
  refine ⟨hx.terms.1, hx.terms.2, fun k hk => ?_⟩
  simp only [Nat.zero_add]
  exact skin_block hx h h' hE v hk

theorem plane_kC {t' lam'} (hs' : Sheet E.toEnv (bayPanel R' 0) s' t' lam')
    (hq : C52.Own (fun b => b.calcKC E.toEnv {}) 0 (some s) q)
    (hq' : C52.Own (fun b => b.calcKC E.toEnv {}) 0 (some s') q') :
    q' (fun k => sign X Y R k * v (num X Y R k)) = q v := by
  obtain ⟨a1, a2, -, -⟩ := in_skin hx h h' hE hs
  obtain ⟨b1, b2, b3⟩ := plane_terms hx h h' hE hs hm v
  exact part_kC h.exact h.smooth hE hm a1 a2 b1 b2 b3 hs hs' hq hq'

theorem plane_kG (hq : C52.Own (fun b => b.calcKG E.toEnv {}) 0 (some s) q)
    (hq' : C52.Own (fun b => b.calcKG E.toEnv {}) 0 (some s') q') :
    q' (fun k => sign X Y R k * v (num X Y R k)) = q v := by
  obtain ⟨a1, a2, -, -⟩ := in_skin hx h h' hE hs
  obtain ⟨b1, b2, b3⟩ := plane_terms hx h h' hE hs hm v
  exact part_kG h.exact h.smooth hE hm a1 a2 b1 b2 b3 hq hq'

theorem plane_kM (hq : C52.Own (C52.massOf E) 0 (some s) q) (hq' : C52.Own (C52.massOf E) 0 (some s') q') :
    q' (fun k => sign X Y R k * v (num X Y R k)) = q v := by
  obtain ⟨a1, a2, -, -⟩ := in_skin hx h h' hE hs
  obtain ⟨b1, b2, b3⟩ := plane_terms hx h h' hE hs hm v
  exact part_kM h.exact h.smooth hE hm a1 a2 b1 b2 b3 hq hq'

end

/-- The terms of a flange. -/
theorem flange_terms {i : ℕ} {s : Blade2 ℝ} {f : Shell ℝ} (hs : R.blade2[i]? = some s) (hf : s.flange = some f)
    (v : ℕ → ℝ) : f.pan.a ≠ 0 ∧ f.pan.b ≠ 0 ∧ (X = true → 4 ≤ f.pan.m) ∧
    ∀ k < 3 * f.pan.m * f.pan.n, sign X Y R (C52.start R' i + k) * v (num X Y R (C52.start R' i + k))
      = mir ⟨X, false, Y⟩ f.pan.m f.pan.n 0 (fun j => v (C52.start R i + j)) k := by
  have hN := enough hx (C101.flanges h)
  have hmem := List.mem_of_getElem? hs
  obtain ⟨fa, fb, -⟩ := h.flange s hmem f hf
  have e : bayPanel R (i + 1) = f.panel := by simp [bayPanel, flangePanel, hs, hf]
  refine ⟨by rw [fa]; exact h.sides.1.ne', fb.ne', hN.terms s hmem f hf, fun k hk => ?_⟩
  have := own_block hN (p := i + 1) (by have := (List.getElem?_eq_some_iff.1 hs).1; omega) v (k := k)
    (by rw [e]; exact hk)
  rw [bayStart_succ, e] at this
  rw [starts hx]
  exact this

/-- Sums over the parts. -/
theorem sums {Pp Pp' : Shell ℝ → ((ℕ → ℝ) → ℝ) → Prop} {P1 P1' : Blade1 ℝ → ((ℕ → ℝ) → ℝ) → Prop}
    {P2 P2' : ℕ → Blade2 ℝ → ((ℕ → ℝ) → ℝ) → Prop} {Qp Q1 Q2 Qp' Q1' Q2' : List ((ℕ → ℝ) → ℝ)} {v w : ℕ → ℝ}
    (ep : List.Forall₂ Pp R.panels Qp) (ep' : List.Forall₂ Pp' R'.panels Qp')
    (e1 : List.Forall₂ P1 R.blade1 Q1) (e1' : List.Forall₂ P1' R'.blade1 Q1')
    (l2 : Q2.length = R.blade2.length) (l2' : Q2'.length = R'.blade2.length)
    (e2 : ∀ i s q, R.blade2[i]? = some s → Q2[i]? = some q → P2 (C52.start R i) s q)
    (e2' : ∀ i s q, R'.blade2[i]? = some s → Q2'[i]? = some q → P2' (C52.start R' i) s q)
    (hp : ∀ p ∈ R.panels, ∀ p' ∈ R'.panels, MirShell E.toEnv ⟨X, Y, false⟩ p p' → ∀ q q', Pp p q → Pp' p' q' →
      q' w = q v)
    (h1 : ∀ s ∈ R.blade1, ∀ s' ∈ R'.blade1, MirBlade1 E.toEnv X Y R.skin.b s s' → ∀ q q', P1 s q → P1' s' q' →
      q' w = q v)
    (h2 : ∀ i s s' q q', R.blade2[i]? = some s → R'.blade2[i]? = some s' → MirBlade2 E.toEnv X Y R.skin.b s s' →
      P2 (C52.start R i) s q → P2' (C52.start R' i) s' q' → q' w = q v) :
    (Qp'.map fun q => q w).sum + (Q1'.map fun q => q w).sum + (Q2'.map fun q => q w).sum
      = (Qp.map fun q => q v).sum + (Q1.map fun q => q v).sum + (Q2.map fun q => q v).sum := by
  have a := sum_both hx.panels ep ep' (v := v) (w := w) hp
  have b := sum_both hx.blade1 e1 e1' (v := v) (w := w) h1
  have c := sum_indexed (σ := Equiv.refl ℕ) (n := R.blade2.length) (fun _ => Iff.rfl) l2 (l2'.trans (count hx)) (v := v)
    (w := w) fun i hi q q' hq hq' => by
    have hs := List.getElem?_eq_getElem hi
    obtain ⟨s', hs', r⟩ := forall₂_at hx.blade2 hs
    exact h2 i _ s' q q' hs hs' r (e2 i _ q hs hq) (e2' i s' q' hs' hq')
  rw [a, b, c]

/-- What the flange stands on gives the same springs. -/
theorem pen_under (hl : Y = true → EvenSkin R) {i : ℕ} {s s' : Blade2 ℝ} (hs : R.blade2[i]? = some s)
    (r : MirBlade2 E.toEnv X Y R.skin.b s s') (p p' t t' : Shell ℝ) (l l' : LamObj ℝ)
    (hp : Under R s p) (hp' : Under R' s' p') (ht : p.rebuild E.toEnv = .ok t) (ht' : p'.rebuild E.toEnv = .ok t')
    (hl1 : t.lam = some l) (hl2 : t'.lam = some l') : penOf t' l' = penOf t l := by
  have hr := r.base
  have hb := C52.built h.terms h.rebuilt
  rcases hp with e | ⟨e, hp⟩ <;> rcases hp' with e' | ⟨e', hp'⟩
  · rw [e, e'] at hr
    cases hr with
    | some hr => exact pen_mir hr ht ht' hl1 hl2
  · rw [e, e'] at hr
    cases hr
  · rw [e, e'] at hr
    cases hr
  · rw [r.panel1] at hp'
    obtain ⟨q1, f1, g1⟩ := forall₂_at hx.panels hp
    by_cases hY : Y = true
    · rw [if_pos hY] at hp'
      -- the image of the second panel
      have hlen := hx.panels.length_eq
      have hi : s.panel2 < R.panels.length := by
        rw [hlen]
        exact (List.getElem?_eq_some_iff.1 hp').1
      have hq := List.getElem?_eq_getElem hi
      obtain ⟨q2, f2, g2⟩ := forall₂_at hx.panels hq
      cases hp'.symm.trans f2
      have b1 := hb.panels p (List.mem_of_getElem? hp)
      have b2 := hb.panels _ (List.mem_of_getElem? hq)
      cases b1.symm.trans ht
      obtain ⟨t2, lam2, s2⟩ := h.skin _ (List.mem_of_getElem? hq)
      cases s2.built.symm.trans b2
      have e1 := pen_mir g2 b2 ht' s2.hlam hl2
      obtain ⟨d0, d⟩ := hl hY s (List.mem_of_getElem? hs) e _ _ hp hq l _ hl1 s2.hlam
      obtain ⟨t1, lam1, s1⟩ := h.skin p (List.mem_of_getElem? hp)
      obtain ⟨x1, x2, y1, y2, p1⟩ := s1.plan
      obtain ⟨z1, z2, w1, w2, p2⟩ := s2.plan
      have ea : (R.panels[s.panel2]).pan.a = p.pan.a := by
        have u1 := congrArg Panel.a p1
        have u2 := congrArg Panel.a p2
        exact Eq.trans u2 u1.symm
      have eb : (R.panels[s.panel2]).pan.b = p.pan.b := by
        have u1 := congrArg Panel.b p1
        have u2 := congrArg Panel.b p2
        exact Eq.trans u2 u1.symm
      rw [e1]
      simp only [penOf, d0, d 0 (by simp), d 1 (by simp), d 3 (by simp), d 4 (by simp), ea, eb]
    · rw [if_neg hY] at hp'
      cases hp'.symm.trans f1
      exact pen_mir g1 ht ht' hl1 hl2

/-- **C102, stiffness.**  Across its stiffeners (`Y`), of bays with like panels at flanges without base. -/
theorem stiffness_partial (hl : Y = true → EvenSkin R) :
    ∃ k0 B1 k0' B1', B.calcKC E = .ok (k0, B1) ∧ B'.calcKC E = .ok (k0', B1') ∧ Mirrored X Y R k0 k0' := by
  obtain ⟨⟨k0, B1⟩, c⟩ := C57.kC_exists E B R N h.terms h.panels h.rebuilt h.size h.ready
  obtain ⟨⟨k0', B1'⟩, c'⟩ := C57.kC_exists E B' R' N' h'.terms h'.panels h'.rebuilt h'.size h'.ready
  have hN := enough hx (C101.flanges h)
  refine ⟨k0, B1, k0', B1', c, c', (mirrored_iff hN).2
    (Signs.signed_of_quad (sign_sq hN) (C81.symmetric.1 c) (C81.symmetric.1 c') fun v => ?_)⟩
  obtain ⟨R0, N0, r0, n0, Qp, Q1, Q2, ep, e1, l2, e2, w⟩ := C52.kC_energy E B B1 k0 h.terms c
  obtain ⟨R0', N0', r0', n0', Qp', Q1', Q2', ep', e1', l2', e2', w'⟩ := C52.kC_energy E B' B1' k0' h'.terms c'
  cases r0.symm.trans h.rebuilt
  cases r0'.symm.trans h'.rebuilt
  simp only [numEquiv_apply]
  rw [w, w']
  have hv : ∀ k < 3 * R.skin.m * R.skin.n, sign X Y R k * v (num X Y R k)
      = mir ⟨X, Y, false⟩ R.skin.m R.skin.n 0 v k := fun k hk => skin_block hx h h' hE v hk
  refine sums hx h h' hE ep ep' e1 e1' l2 l2' e2 e2' (fun p hp p' hp' r q q' hq hq' => ?_)
    (fun s hs s' hs' r q q' hq hq' => ?_) fun i s s' q q' hs hs' r hq hq' => ?_
  · obtain ⟨t, lam, hsh⟩ := h.skin p hp
    obtain ⟨t', lam', hsh'⟩ := h'.skin p' hp'
    exact plane_kC hx h h' hE hsh r v hsh' hq hq'
  · obtain ⟨qb, qf, o, f, a⟩ := hq
    obtain ⟨qb', qf', o', f', a'⟩ := hq'
    rw [a, a', beam_mir h.exact h.smooth hE hx.skin hx.terms h.sides.1.ne' h.sides.2.ne' hv r f f',
      own_opt r.base o o' (v := v) (w := fun k => sign X Y R k * v (num X Y R k)) fun b b' eb eb' rb => ?_]
    obtain ⟨t, lam, hsh⟩ := h.base1 s hs b eb
    obtain ⟨t', lam', hsh'⟩ := h'.base1 s' hs' b' eb'
    rw [eb] at o
    rw [eb'] at o'
    exact plane_kC hx h h' hE hsh rb v hsh' o o'
  · obtain ⟨qb, qf, qj, o, f, j, a⟩ := hq
    obtain ⟨qb', qf', qj', o', f', j', a'⟩ := hq'
    have hmem := List.mem_of_getElem? hs
    have hmem' := List.mem_of_getElem? hs'
    obtain ⟨x, hxf⟩ := C101.flanges h s hmem
    obtain ⟨x', hxf', rf, ex, ex'⟩ := flange_pair hx hs hs' hxf
    obtain ⟨xa, xb, xX, xv⟩ := flange_terms hx h h' hE hs hxf v
    have c1 : qb' (fun k => sign X Y R k * v (num X Y R k)) = qb v :=
      own_opt r.base o o' fun b b' eb eb' rb => by
        obtain ⟨t, lam, hsh⟩ := h.base2 s hmem b eb
        obtain ⟨t', lam', hsh'⟩ := h'.base2 s' hmem' b' eb'
        rw [eb] at o
        rw [eb'] at o'
        exact plane_kC hx h h' hE hsh rb v hsh' o o'
    have c2 : qf' (fun k => sign X Y R k * v (num X Y R k)) = qf v := by
      obtain ⟨-, -, t, lam, hsh⟩ := h.flange s hmem x hxf
      obtain ⟨-, -, t', lam', hsh'⟩ := h'.flange s' hmem' x' hxf'
      rw [hxf] at f
      rw [hxf'] at f'
      exact part_kC h.exact h.smooth hE rf xa xb xX (fun hc => by cases hc) xv hsh hsh' f f'
    have c3 : qj' (fun k => sign X Y R k * v (num X Y R k)) = qj v := by
      have him := image hx (C101.flanges h) h.smooth hE (p := i + 1)
        (by have := (List.getElem?_eq_some_iff.1 hs).1; omega) (by rw [ex]; exact xa) (by rw [ex]; exact xb) v
      rw [bayStart_succ, ex, ex'] at him
      rw [starts hx] at j'
      exact joint_mir h.exact h.smooth hE hx.skin hx.terms h.sides.1.ne' h.sides.2.ne' hv r hxf hxf' rf xa xb
        (C101.after_skin R i) (pen_under hx h h' hE hl hs r) him j j'
    rw [a, a', c1, c2, c3]

/-- **C102, geometric stiffness.** -/
theorem geometric : ∃ kG B1 kG' B1', B.calcKG E none = .ok (kG, B1) ∧ B'.calcKG E none = .ok (kG', B1') ∧
    Mirrored X Y R kG kG' := by
  obtain ⟨⟨k0, B1⟩, c⟩ := C57.kG_exists E B R N h.terms h.panels h.rebuilt h.size h.ready
  obtain ⟨⟨k0', B1'⟩, c'⟩ := C57.kG_exists E B' R' N' h'.terms h'.panels h'.rebuilt h'.size h'.ready
  have hN := enough hx (C101.flanges h)
  refine ⟨k0, B1, k0', B1', c, c', (mirrored_iff hN).2
    (Signs.signed_of_quad (sign_sq hN) (C81.symmetric.2.1 none c) (C81.symmetric.2.1 none c') fun v => ?_)⟩
  obtain ⟨R0, N0, r0, n0, Qp, Q1, Q2, ep, e1, l2, e2, w⟩ := C52.kG_energy E B B1 k0 h.terms c
  obtain ⟨R0', N0', r0', n0', Qp', Q1', Q2', ep', e1', l2', e2', w'⟩ := C52.kG_energy E B' B1' k0' h'.terms c'
  cases r0.symm.trans h.rebuilt
  cases r0'.symm.trans h'.rebuilt
  simp only [numEquiv_apply]
  rw [w, w']
  have hv : ∀ k < 3 * R.skin.m * R.skin.n, sign X Y R k * v (num X Y R k)
      = mir ⟨X, Y, false⟩ R.skin.m R.skin.n 0 v k := fun k hk => skin_block hx h h' hE v hk
  refine sums hx h h' hE (P2 := fun off s q => C52.Own (fun b => b.calcKG E.toEnv {}) off s.flange q)
    (P2' := fun off s q => C52.Own (fun b => b.calcKG E.toEnv {}) off s.flange q)
    ep ep' e1 e1' l2 l2' e2 e2' (fun p hp p' hp' r q q' hq hq' => ?_)
    (fun s hs s' hs' r q q' hq hq' => ?_) fun i s s' q q' hs hs' r hq hq' => ?_
  · obtain ⟨t, lam, hsh⟩ := h.skin p hp
    exact plane_kG hx h h' hE hsh r v hq hq'
  · exact beamG_mir h.exact h.smooth hE hx.skin hx.terms h.sides.1.ne' h.sides.2.ne' hv r hq hq'
  · obtain ⟨x, hxf⟩ := C101.flanges h s (List.mem_of_getElem? hs)
    obtain ⟨x', hxf', rf, ex, ex'⟩ := flange_pair hx hs hs' hxf
    obtain ⟨xa, xb, xX, xv⟩ := flange_terms hx h h' hE hs hxf v
    rw [hxf] at hq
    rw [hxf'] at hq'
    exact part_kG h.exact h.smooth hE rf xa xb xX (fun hc => by cases hc) xv hq hq'

/-- **C102, mass.**  Of bays whose mass matrices exist, see `C57`. -/
theorem mass {kM kM' : Coo ℝ} {B1 B1' : Bay ℝ} (c : B.calcKM E = .ok (kM, B1)) (c' : B'.calcKM E = .ok (kM', B1')) :
    Mirrored X Y R kM kM' := by
  have hN := enough hx (C101.flanges h)
  refine (mirrored_iff hN).2
    (Signs.signed_of_quad (sign_sq hN) (C81.symmetric.2.2 c) (C81.symmetric.2.2 c') fun v => ?_)
  obtain ⟨R0, N0, r0, n0, Qp, Q1, Q2, ep, e1, l2, e2, w⟩ := C52.kM_energy E B B1 kM h.terms c
  obtain ⟨R0', N0', r0', n0', Qp', Q1', Q2', ep', e1', l2', e2', w'⟩ := C52.kM_energy E B' B1' kM' h'.terms c'
  cases r0.symm.trans h.rebuilt
  cases r0'.symm.trans h'.rebuilt
  simp only [numEquiv_apply]
  rw [w, w']
  have hv : ∀ k < 3 * R.skin.m * R.skin.n, sign X Y R k * v (num X Y R k)
      = mir ⟨X, Y, false⟩ R.skin.m R.skin.n 0 v k := fun k hk => skin_block hx h h' hE v hk
  refine sums hx h h' hE ep ep' e1 e1' l2 l2' e2 e2' (fun p hp p' hp' r q q' hq hq' => ?_)
    (fun s hs s' hs' r q q' hq hq' => ?_) fun i s s' q q' hs hs' r hq hq' => ?_
  · obtain ⟨t, lam, hsh⟩ := h.skin p hp
    exact plane_kM hx h h' hE hsh r v hq hq'
  · obtain ⟨qb, qf, o, f, a⟩ := hq
    obtain ⟨qb', qf', o', f', a'⟩ := hq'
    rw [a, a', beamM_mir h.exact h.smooth hE hx.skin hx.terms h.sides.1.ne' h.sides.2.ne' hv hx.panels r f f',
      own_opt r.base o o' (v := v) (w := fun k => sign X Y R k * v (num X Y R k)) fun b b' eb eb' rb => ?_]
    obtain ⟨t, lam, hsh⟩ := h.base1 s hs b eb
    rw [eb] at o
    rw [eb'] at o'
    exact plane_kM hx h h' hE hsh rb v o o'
  · obtain ⟨qb, qf, o, f, a⟩ := hq
    obtain ⟨qb', qf', o', f', a'⟩ := hq'
    have hmem := List.mem_of_getElem? hs
    obtain ⟨x, hxf⟩ := C101.flanges h s hmem
    obtain ⟨x', hxf', rf, ex, ex'⟩ := flange_pair hx hs hs' hxf
    obtain ⟨xa, xb, xX, xv⟩ := flange_terms hx h h' hE hs hxf v
    have c1 : qb' (fun k => sign X Y R k * v (num X Y R k)) = qb v :=
      own_opt r.base o o' fun b b' eb eb' rb => by
        obtain ⟨t, lam, hsh⟩ := h.base2 s hmem b eb
        rw [eb] at o
        rw [eb'] at o'
        exact plane_kM hx h h' hE hsh rb v o o'
    have c2 : qf' (fun k => sign X Y R k * v (num X Y R k)) = qf v := by
      rw [hxf] at f
      rw [hxf'] at f'
      exact part_kM h.exact h.smooth hE rf xa xb xX (fun hc => by cases hc) xv f f'
    rw [a, a', c1, c2]

end

/-! ## Analyses -/

section
variable (hx : MirBay E.toEnv X Y R R') (hf : ∀ s ∈ R.blade2, ∃ f, s.flange = some f)
include hx hf

/-- The unknowns of the mirrored bay. -/
theorem mem_actives (k : ℕ) : k ∈ C81.actives R' ↔ num X Y R k ∈ C81.actives R := by
  have hN := enough hx hf
  have key : ∀ p < R.blade2.length + 1, ∀ k, bayStart R p ≤ k →
      k < bayStart R p + 3 * ((bayPanel R p).m * (bayPanel R p).n) →
      (k ∈ C76.actives (bayPanel R' p) (bayStart R' p) ↔ num X Y R k ∈ C76.actives (bayPanel R p) (bayStart R p)) := by
    intro p hp k h1 h2
    have := C89.mem_actives (turned hx hf hp) (many hN p hp).1 (many hN p hp).2 (bayStart R p) k
    rw [starts' hx]
    have e := mirNo_block (m := fun p => (bayPanel R p).m) (n := fun p => (bayPanel R p).n) (many hN) (start_sep hN) hp
      ⟨h1, h2⟩
    unfold num
    rw [e]
    exact this
  simp only [C81.actives, C78.actives, mem_biUnion, mem_range, count hx]
  constructor
  · rintro ⟨p, hp, hk⟩
    have hb := C101.in_block hk
    have ht := turned hx hf hp
    rw [starts' hx, ht.m, ht.n] at hb
    exact ⟨p, hp, (key p hp k hb.1 hb.2).1 hk⟩
  · rintro ⟨p, hp, hk⟩
    have hb := C101.in_block hk
    have e := mirNo_block (m := fun p => (bayPanel R p).m) (n := fun p => (bayPanel R p).n) (many hN) (start_sep hN) hp
      hb
    have e1 : num X Y R (num X Y R k) = k := num_num hN k
    have e2 : twinNo (bayFace X Y p).X (bayFace X Y p).Y (bayPanel R p).m (bayPanel R p).n (bayStart R p) (num X Y R k)
        = k := e.symm.trans e1
    have hb' := twinNo_in (many hN p hp).1 (many hN p hp).2 hb
    rw [e2] at hb'
    exact ⟨p, hp, (key p hp k hb'.1 hb'.2).2 hk⟩

/-- **C102, frequencies.** -/
theorem frequencies {K M K' M' : Coo ℝ} (hK : Mirrored X Y R K K') (hM : Mirrored X Y R M M') (μ : ℂ) :
    Eigen (C81.actives R') K' M' μ ↔ Eigen (C81.actives R) K M μ :=
  Signs.eigen_iff (e := numEquiv (enough hx hf)) (sign_sq (enough hx hf)) (mem_actives hx hf) hK hM μ

/-- **C102, the list of frequencies**, with multiplicities. -/
theorem frequency_list {K M K' M' : Coo ℝ} (hK : Mirrored X Y R K K') (hM : Mirrored X Y R M M') (hs : Sym M)
    (hs' : Sym M') (hp : Pos (C81.actives R) M) {φ lam φ' lam'} (h1 : Modes (C81.actives R) K M φ lam)
    (h2 : Modes (C81.actives R') K' M' φ' lam') :
    (C81.actives R').card = (C81.actives R).card ∧ ∀ a, ∀ ha ha', lam' ⟨a, ha'⟩ = lam ⟨a, ha⟩ :=
  Signs.values (e := numEquiv (enough hx hf)) (sign_sq (enough hx hf)) (mem_actives hx hf) hK hM hs hs' hp h1 h2

/-- **C102, buckling.** -/
theorem buckling {K G K' G' : Coo ℝ} (hK : Mirrored X Y R K K') (hG : Mirrored X Y R G G') (p : ℂ) :
    Critical (C81.actives R') K' G' p ↔ Critical (C81.actives R) K G p :=
  Signs.critical_iff (e := numEquiv (enough hx hf)) (sign_sq (enough hx hf)) (mem_actives hx hf) hK hG p

/-- **C102, static analysis.**  Mirrored displacements at every point of the skin and of every flange. -/
theorem static {S : Shape ℝ} (hS : S.C2) (hE : S.Even)
    (side : ∀ p < R.blade2.length + 1, (bayPanel R p).a ≠ 0 ∧ (bayPanel R p).b ≠ 0) {K K' : Coo ℝ}
    (hK : Mirrored X Y R K K') {f f' : ℕ → ℝ} (hforce : ∀ k ∈ C81.actives R', f' k = sign X Y R k * f (num X Y R k))
    {c : ℕ → ℝ} (hc : Balanced (C81.actives R) K f c) :
    ∃ c', Balanced (C81.actives R') K' f' c' ∧ ∀ p < R.blade2.length + 1, ∀ α < 3, ∀ x y,
      u S (bayPanel R' p) (bayStart R' p) c' α (across (bayFace X Y p).X (bayPanel R p).a x)
          (across (bayFace X Y p).Y (bayPanel R p).b y)
        = dSign (bayFace X Y p) α * u S (bayPanel R p) (bayStart R p) c α x y := by
  have hN := enough hx hf
  refine ⟨fun k => sign X Y R k * c (num X Y R k), ?_, fun p hp α hα x y => ?_⟩
  · exact Signs.balanced_to (e := numEquiv hN) (sign_sq hN) (mem_actives hx hf) hK hforce hc
  · rw [starts' hx]
    exact (image hx hf hS hE hp (side p hp).1 (side p hp).2 c).disp α hα x y

end

/-! ## A concrete case -/

/-- The skin of `Witness.panel` with its edges exchanged. -/
noncomputable def back : Panel ℝ :=
  { Witness.panel with
    xu := turnFlags true Witness.panel.xu, xv := turnFlags true Witness.panel.xv, xw := turnFlags true Witness.panel.xw
    yu := turnFlags true Witness.panel.yu, yv := turnFlags true Witness.panel.yv, yw := turnFlags true Witness.panel.yw }

/-- A curved bay of two panels; the plies of the second one have the thickness `t`. -/
noncomputable def two (P : Panel ℝ) (t y1 y2 z1 z2 : ℝ) : Bay ℝ :=
  (Bay.addPanel (Bay.addPanel
    { skin := P, r := some 5, model := none, stack := [0, 45], plyt := some (1 / 4)
      plyts := [], laminaprop := [1], laminaprops := [], rho := 1, beta := none, Mach := none, V := none
      rhoAir := none, speedSound := none, panels := [], blade1 := [], blade2 := [] }
    y1 y2 none none none none none none none) z1 z2 none none (some t) none none none none)

/-- With a beam and a flange where the panels meet. -/
noncomputable def made (P : Panel ℝ) (t y1 y2 z1 z2 ys : ℝ) : Except Fail (Bay ℝ) := do
  let B ← (two P t y1 y2 z1 z2).addBlade1 env ys none none (some (1 / 3)) {} ply
  B.addBlade2 env ys none none (some (1 / 3)) {} ply 4 6

theorem found_left (t : ℝ) (B : Bay ℝ) (hp : B.panels = (two Witness.panel t 0 (1 / 3) (1 / 3) 1).panels)
    (hs : B.skin = Witness.panel) : B.findPanels (1 / 3) = .ok (0, 1) := by
  unfold Bay.findPanels
  rw [hp, hs]
  have : findLoop (1 / 3) (Witness.panel (K := ℝ)).b 0 (two Witness.panel t 0 (1 / 3) (1 / 3) 1).panels (none, none)
      = (some 0, some 1) := by
    simp only [two, Bay.addPanel, Shell.new, List.nil_append, List.singleton_append, findLoop, findStep,
      isclose, Witness.panel]
    norm_num
  rw [this]
  rfl

theorem found_right (t : ℝ) (B : Bay ℝ) (hp : B.panels = (two back t (2 / 3) 1 0 (2 / 3)).panels)
    (hs : B.skin = back) : B.findPanels (2 / 3) = .ok (1, 0) := by
  unfold Bay.findPanels
  rw [hp, hs]
  have : findLoop (2 / 3) back.b 0 (two back t (2 / 3) 1 0 (2 / 3)).panels (none, none)
      = (some 1, some 0) := by
    simp only [two, Bay.addPanel, Shell.new, List.nil_append, List.singleton_append, findLoop, findStep,
      isclose, Witness.panel, back]
    norm_num
  rw [this]
  rfl

theorem thick_comm (p q : Shell ℝ) : skinThick q p = skinThick p q := add_comm _ _

theorem pair_of {B : Bay ℝ} {i j : ℕ} {p q : Shell ℝ} (hp : B.panels[i]? = some p) (hq : B.panels[j]? = some q)
    (h : p.model = q.model ∧ p.pan.m = q.pan.m ∧ p.pan.n = q.pan.n ∧ p.r = q.r) : B.pair i j = .ok (p, q) := by
  simp [Bay.pair, hp, hq, h]

/-- The springs of a flange without base. -/
theorem ktkr_value {E : BayEnv ℝ} {B : Bay ℝ} {s : Blade2 ℝ} {o : Option (Shell ℝ)} {p q f t g : Shell ℝ}
    {l1 l2 : LamObj ℝ} {kt : ℝ} (ho : o = none)
    (hp : B.panels[s.panel1]? = some p) (hq : B.panels[s.panel2]? = some q)
    (h : p.model = q.model ∧ p.pan.m = q.pan.m ∧ p.pan.n = q.pan.n ∧ p.r = q.r) (ht : p.rebuild E.toEnv = .ok t)
    (hg : f.rebuild E.toEnv = .ok g) (h1 : t.lam = some l1) (h2 : g.lam = some l2)
    (hk : kt = 4 * l1.ABD 1 1 * l2.ABD 1 1 / ((l1.ABD 1 1 + l2.ABD 1 1) * (l1.h + l2.h))) :
    ∃ k x, Blade2.ktkr E B s o f = .ok ((kt, k), x) := by
  subst hk ho
  have e : ktkrY E.toEnv p f = .ok ((4 * l1.ABD 1 1 * l2.ABD 1 1 / ((l1.ABD 1 1 + l2.ABD 1 1) * (l1.h + l2.h)),
        4 * l1.ABD 4 4 * l2.ABD 4 4 / ((l1.ABD 4 4 + l2.ABD 4 4) * (l1.h + l2.h))), t, g) := by
    refine bind_ok.2 ⟨t, ht, bind_ok.2 ⟨g, hg, ?_⟩⟩
    simp only [h1, h2]
    rfl
  exact ⟨_, _, bind_ok.2 ⟨_, pair_of hp hq h, bind_ok.2 ⟨_, e, rfl⟩⟩⟩

theorem made_shaped {P : Panel ℝ} {t y1 y2 z1 z2 ys : ℝ} {B : Bay ℝ} (h : made P t y1 y2 z1 z2 ys = .ok B) :
    Shaped B := by
  unfold made at h
  obtain ⟨B1, h1, h⟩ := bind_ok.1 h
  exact shaped_addBlade2 (shaped_addBlade1 (shaped_addPanel (shaped_addPanel (shaped_empty rfl rfl rfl) ..) ..)
    _ _ _ _ _ _ h1) _ _ _ (by norm_num) _ _ _ _ h

/-- A bay as built, ready for analysis. -/
structure Full (B R : Bay ℝ) : Prop where
  panels : B.panels ≠ []
  rebuilt : B.rebuild env = .ok R
  ready : Ready env R
  size : R.getSize = .ok (105 + (72 + 0))
  sides : 0 < R.skin.a ∧ 0 < R.skin.b
  curved : Curved R.r R.model
  beam : ∀ s ∈ B.blade1, s.bf = some (1 / 3) ∧ s.hf = 1 / 2
  bare1 : ∀ s ∈ R.blade1, s.base = none
  bare2 : ∀ s ∈ R.blade2, s.base = none

theorem Full.solid {B R : Bay ℝ} (h : Full B R) (hS : Shaped B) : SolidBay env B R (105 + (72 + 0)) := by
  refine C81.solid (Tab.of_exact _ _) bardellShape_C2 env_good hS h.panels h.rebuilt h.size h.sides h.ready h.curved
    fun t ht => ?_
  obtain ⟨m, ps, -, -, -, -, -, h5, -⟩ := bay_rebuild_ok h.rebuilt
  obtain ⟨s, hs, hr⟩ := C52.forall₂_mem_right h5 t ht
  obtain ⟨e1, e2⟩ := h.beam s hs
  refine section_ok hr (fun x hx => ?_) (by rw [e2]; norm_num) fun st l _ hl p hp => ?_
  · rw [e1] at hx
    cases hx
    norm_num
  · cases hl
    obtain ⟨h, -, rfl⟩ := List.mem_map.1 hp
    exact ⟨abs_nonneg h, by norm_num, by norm_num, rfl⟩

/-- The matrices of the concrete laminates do not couple anything. -/
theorem diag_mir (g : Facing) (c : ℝ) : (fun i j : ℕ => if i = j then c else 0) = mirLam g fun i j => if i = j then c else 0 := by
  funext i j
  unfold mirLam
  by_cases h : i = j
  · subst h
    have : kSign (K := ℝ) g i * kSign g i = 1 := by
      unfold kSign eSign sgn
      split <;> split <;> cases g.X <;> cases g.Y <;> cases g.Z <;> simp
    simp [this]
  · simp [h]

/-- The springs between parts of thickness `x` and `y`. -/
noncomputable def kSpring (x y : ℝ) : ℝ :=
  4 * (1 + |x|) * (1 + |y|) / ((1 + |x| + (1 + |y|)) * (1 + |x| + (1 + |y|)))

/-- The bays; the springs are those of the first panel of each. -/
theorem both (t : ℝ) : ∃ B B' R R', made Witness.panel t 0 (1 / 3) (1 / 3) 1 (1 / 3) = .ok B ∧
    made back t (2 / 3) 1 0 (2 / 3) (2 / 3) = .ok B' ∧ Full B R ∧ Full B' R' ∧ MirBay env.toEnv true true R R' ∧
    (t = 1 / 4 → EvenSkin R) ∧
    (∃ s f, R.blade2 = [s] ∧ s.flange = some f ∧
      ∃ k x, Blade2.ktkr env R s s.base f = .ok ((kSpring [1 / 4, 1 / 4].sum [1 / 2].sum, k), x)) ∧
    ∃ s f, R'.blade2 = [s] ∧ s.flange = some f ∧
      ∃ k x, Blade2.ktkr env R' s s.base f = .ok ((kSpring [t, t].sum [1 / 2].sum, k), x) := by
  refine ⟨_, _, _, _, bind_ok.2 ⟨_, bind_ok.2 ⟨_, rfl, bind_ok.2 ⟨_, rfl, bind_ok.2 ⟨_, found_left t _ rfl rfl,
      bind_ok.2 ⟨_, bind_ok.2 ⟨_, pair_of rfl rfl ⟨rfl, rfl, rfl, rfl⟩, rfl⟩, rfl⟩⟩⟩⟩,
    bind_ok.2 ⟨_, rfl, bind_ok.2 ⟨_, rfl, bind_ok.2 ⟨_, found_left t _ rfl rfl,
      bind_ok.2 ⟨_, rfl, bind_ok.2 ⟨_, rfl, bind_ok.2 ⟨_, bind_ok.2 ⟨_, pair_of rfl rfl ⟨rfl, rfl, rfl, rfl⟩, rfl⟩,
        rfl⟩⟩⟩⟩⟩⟩⟩,
    bind_ok.2 ⟨_, bind_ok.2 ⟨_, rfl, bind_ok.2 ⟨_, rfl, bind_ok.2 ⟨_, found_right t _ rfl rfl,
      bind_ok.2 ⟨_, bind_ok.2 ⟨_, pair_of rfl rfl ⟨rfl, rfl, rfl, rfl⟩, rfl⟩, rfl⟩⟩⟩⟩,
    bind_ok.2 ⟨_, rfl, bind_ok.2 ⟨_, rfl, bind_ok.2 ⟨_, found_right t _ rfl rfl,
      bind_ok.2 ⟨_, rfl, bind_ok.2 ⟨_, rfl, bind_ok.2 ⟨_, bind_ok.2 ⟨_, pair_of rfl rfl ⟨rfl, rfl, rfl, rfl⟩, rfl⟩,
        rfl⟩⟩⟩⟩⟩⟩⟩,
    ⟨List.cons_ne_nil _ _, bind_ok.2 ⟨_, rfl, bind_ok.2 ⟨_,
      bind_ok.2 ⟨_, bind_ok.2 ⟨_, pair_of rfl rfl ⟨rfl, rfl, rfl, rfl⟩, rfl⟩, rfl⟩, bind_ok.2 ⟨_,
      bind_ok.2 ⟨_, bind_ok.2 ⟨_, pair_of rfl rfl ⟨rfl, rfl, rfl, rfl⟩, rfl⟩, rfl⟩, rfl⟩⟩⟩, ?_, rfl, ?_, ?_, ?_,
      ?_, ?_⟩,
    ⟨List.cons_ne_nil _ _, bind_ok.2 ⟨_, rfl, bind_ok.2 ⟨_,
      bind_ok.2 ⟨_, bind_ok.2 ⟨_, pair_of rfl rfl ⟨rfl, rfl, rfl, rfl⟩, rfl⟩, rfl⟩, bind_ok.2 ⟨_,
      bind_ok.2 ⟨_, bind_ok.2 ⟨_, pair_of rfl rfl ⟨rfl, rfl, rfl, rfl⟩, rfl⟩, rfl⟩, rfl⟩⟩⟩, ?_, rfl, ?_, ?_, ?_,
      ?_, ?_⟩, ?_, ?_, ?_, ?_⟩
  · refine ⟨fun s hs b hb => ?_, fun s hs b hb => ?_, fun s hs b hb => ?_⟩ <;>
      obtain rfl := List.mem_singleton.1 hs <;> cases hb
    exact ⟨_, rfl⟩
  · show 0 < (3 : ℝ) ∧ 0 < (1 : ℝ)
    norm_num
  · exact .inr ⟨5, by norm_num, rfl, rfl⟩
  · intro s hs
    obtain rfl := List.mem_singleton.1 hs
    refine ⟨rfl, ?_⟩
    show List.sum [(1 / 2 : ℝ)] = 1 / 2
    simp
  · intro s hs
    obtain rfl := List.mem_singleton.1 hs
    rfl
  · intro s hs
    obtain rfl := List.mem_singleton.1 hs
    rfl
  · refine ⟨fun s hs b hb => ?_, fun s hs b hb => ?_, fun s hs b hb => ?_⟩ <;>
      obtain rfl := List.mem_singleton.1 hs <;> cases hb
    exact ⟨_, rfl⟩
  · show 0 < (3 : ℝ) ∧ 0 < (1 : ℝ)
    norm_num
  · exact .inr ⟨5, by norm_num, rfl, rfl⟩
  · intro s hs
    obtain rfl := List.mem_singleton.1 hs
    refine ⟨rfl, ?_⟩
    show List.sum [(1 / 2 : ℝ)] = 1 / 2
    simp
  · intro s hs
    obtain rfl := List.mem_singleton.1 hs
    rfl
  · intro s hs
    obtain rfl := List.mem_singleton.1 hs
    rfl
  · have flip : ∀ y1 y2 z1 z2 r : ℝ, z1 = 1 - y2 → z2 = 1 - y1 → y1 ≠ -1 → y2 ≠ -1 → z1 ≠ -1 → z2 ≠ -1 →
        Turned true true { Witness.panel (K := ℝ) with x1 := -1, x2 := 1, y1 := y1, y2 := y2, r := r }
          { back with x1 := -1, x2 := 1, y1 := z1, y2 := z2, r := r } := by
      intro y1 y2 z1 z2 r e1 e2 h1 h2 h3 h4
      refine ⟨rfl, rfl, rfl, rfl, rfl, fun β => ?_, fun β => ?_, ?_, ?_⟩
      · unfold Panel.xf
        split <;> rfl
      · unfold Panel.yf
        split <;> rfl
      · simp [xdom, back, Witness.panel]
      · subst e1 e2
        simp [ydom, Witness.panel, h1, h2, h3, h4]
    refine ⟨⟨rfl, rfl, rfl, rfl, rfl, fun β => ?_, fun β => ?_, ?_, ?_⟩, ⟨fun _ => ?_, fun _ => ?_⟩,
      .cons ⟨rfl, _, _, rfl, rfl, ?_⟩ (.cons ⟨rfl, _, _, rfl, rfl, ?_⟩ .nil), .cons ?_ .nil, .cons ?_ .nil⟩
    · unfold Panel.xf
      split <;> rfl
    · unfold Panel.yf
      split <;> rfl
    · simp [xdom, bayPanel, two, Bay.addPanel, back, Witness.panel]
    · simp [ydom, bayPanel, two, Bay.addPanel, back, Witness.panel]
    · show 4 ≤ 5
      norm_num
    · show 4 ≤ 7
      norm_num
    · exact ⟨flip 0 (1 / 3) (2 / 3) 1 5 (by norm_num) (by norm_num) (by norm_num) (by norm_num) (by norm_num)
        (by norm_num), rfl, rfl, .inr ⟨by show (5 : ℝ) ≠ 0; norm_num, rfl, rfl⟩, rfl, rfl,
        by show (0 : ℝ) = _ * 0; simp, rfl, by show (0 : ℝ) = _ * 0; simp, rfl, _, _, rfl, rfl, diag_mir _ _, rfl⟩
    · exact ⟨flip (1 / 3) 1 0 (2 / 3) 5 (by norm_num) (by norm_num) (by norm_num) (by norm_num) (by norm_num)
        (by norm_num), rfl, rfl, .inr ⟨by show (5 : ℝ) ≠ 0; norm_num, rfl, rfl⟩, rfl, rfl,
        by show (0 : ℝ) = _ * 0; simp, rfl, by show (0 : ℝ) = _ * 0; simp, rfl, _, _, rfl, rfl, diag_mir _ _, rfl⟩
    · refine ⟨rfl, rfl, rfl, ?_, rfl, rfl, congrArg (fun h => (1 / 3 : ℝ) / 2 + 0 + h / 2) (thick_comm _ _), rfl, .none,
        .some ⟨rfl, rfl, rfl, ?_⟩⟩
      · show (2 / 3 : ℝ) = 1 - 1 / 3
        norm_num
      · show (0 : ℝ) + _ * (0 - 1 * 0 / 2) = _ * (0 + _ * (0 - 1 * 0 / 2))
        simp
    · refine ⟨rfl, rfl, ?_, .none, .some ⟨rfl, _, _, rfl, rfl, ?_⟩, ?_⟩
      · show (2 / 3 : ℝ) = 1 - 1 / 3
        norm_num
      · refine ⟨⟨rfl, rfl, rfl, rfl, rfl, fun β => ?_, fun β => ?_, ?_, ?_⟩, rfl, rfl, .inl ⟨rfl, rfl⟩, rfl, rfl,
          by show (0 : ℝ) = _ * 0; simp, rfl, by show (0 : ℝ) = _ * 0; simp, rfl, _, _, rfl, rfl, diag_mir _ _, rfl⟩
        · unfold Panel.xf
          split <;> rfl
        · unfold Panel.yf
          split <;> rfl
        · have hd : ∀ P P' : Panel ℝ, P.x1 = -1 → P'.x1 = -1 → P'.a = P.a →
              xdom P' = (P.a - (xdom P).2, P.a - (xdom P).1) := fun P P' h1 h2 h3 => by simp [xdom, h1, h2, h3]
          exact hd _ _ rfl rfl rfl
        · rfl
      · rintro f hf -
        cases hf
        show 4 ≤ 4
        norm_num
  · rintro rfl s hs hb p q hp hq l l' hl hl'
    obtain rfl := List.mem_singleton.1 hs
    cases hp
    cases hq
    cases hl
    cases hl'
    exact ⟨rfl, fun _ _ => rfl⟩
  · exact ⟨_, _, rfl, rfl, ktkr_value rfl rfl rfl ⟨rfl, rfl, rfl, rfl⟩ rfl rfl rfl rfl rfl⟩
  · exact ⟨_, _, rfl, rfl, ktkr_value rfl rfl rfl ⟨rfl, rfl, rfl, rfl⟩ rfl rfl rfl rfl rfl⟩

/-- Bay and image buckle and vibrate alike; the amplitudes are numbered and signed as said. -/
example : ∃ B B' R R' N, made Witness.panel (1 / 4) 0 (1 / 3) (1 / 3) 1 (1 / 3) = .ok B ∧
    made back (1 / 4) (2 / 3) 1 0 (2 / 3) (2 / 3) = .ok B' ∧ MirBay env.toEnv true true R R' ∧ SolidBay env B R N ∧
    SolidBay env B' R' N ∧ ∃ k0 B1 k0' B1' kG B2 kG' B2' kM B3 kM' B3', B.calcKC env = .ok (k0, B1) ∧
      B'.calcKC env = .ok (k0', B1') ∧ B.calcKG env none = .ok (kG, B2) ∧ B'.calcKG env none = .ok (kG', B2') ∧
      B.calcKM env = .ok (kM, B3) ∧ B'.calcKM env = .ok (kM', B3') ∧ Mirrored true true R k0 k0' ∧
      (∀ p : ℂ, Critical (C81.actives R') k0' kG' p ↔ Critical (C81.actives R) k0 kG p) ∧
      ∀ μ : ℂ, Eigen (C81.actives R') k0' kM' μ ↔ Eigen (C81.actives R) k0 kM μ := by
  obtain ⟨B, B', R, R', hB, hB', f, f', hx, hl, -, -⟩ := both (1 / 4)
  have h := f.solid (made_shaped hB)
  have h' := f'.solid (made_shaped hB')
  have hE : env.S.Even := bardellShape_even
  obtain ⟨k0, B1, k0', B1', c, c', r⟩ := stiffness_partial hx h h' hE fun _ => hl rfl
  obtain ⟨kG, B2, kG', B2', g, g', rG⟩ := geometric hx h h' hE
  obtain ⟨⟨kM, B3⟩, m⟩ := C57.kM_exists_partial env B R _ h.terms h.panels h.rebuilt h.size f.bare1
    fun s hs b hb => by rw [f.bare2 s hs] at hb; cases hb
  obtain ⟨⟨kM', B3'⟩, m'⟩ := C57.kM_exists_partial env B' R' _ h'.terms h'.panels h'.rebuilt h'.size f'.bare1
    fun s hs b hb => by rw [f'.bare2 s hs] at hb; cases hb
  exact ⟨B, B', R, R', _, hB, hB', hx, h, h', k0, B1, k0', B1', kG, B2, kG', B2', kM, B3, kM', B3', c, c', g, g', m, m',
    r, buckling hx (C101.flanges h) r rG, frequencies hx (C101.flanges h) r (mass hx h h' hE m m')⟩

/-! ## Where the code breaks the symmetry -/

/-- **C102, violated for springs.**  A bay of unlike panels and its mirror image: the flange of one is held by other
springs than the flange of the other. -/
theorem springs_violated : ∃ B B' R R' N, SolidBay env B R N ∧ SolidBay env B' R' N ∧
    MirBay env.toEnv true true R R' ∧ ∃ s s' f f' k k' x x', R.blade2 = [s] ∧ R'.blade2 = [s'] ∧ s.flange = some f ∧
      s'.flange = some f' ∧ Blade2.ktkr env R s s.base f = .ok (k, x) ∧
      Blade2.ktkr env R' s' s'.base f' = .ok (k', x') ∧ k.1 ≠ k'.1 := by
  obtain ⟨B, B', R, R', hB, hB', f, f', hx, -, ⟨s, g, a1, a2, k, x, a3⟩, s', g', b1, b2, k', x', b3⟩ := both (1 / 2)
  refine ⟨B, B', R, R', _, f.solid (made_shaped hB), f'.solid (made_shaped hB'), hx, s, s', g, g', _, _, x, x', a1, b1,
    a2, b2, a3, b3, ?_⟩
  simp only [kSpring, List.sum_cons, List.sum_nil]
  norm_num [abs_of_pos]

/-- **C102, violated for the section.**  One ply, turned over, is the same ply.  The code couples its stretching and
twisting by a number that is not its own opposite. -/
theorem section_violated (p : FullPly ℚ) (h : p.q22 ≠ 0) (hh : p.h ≠ 0) (hc : p.q16 ≠ 0) (hq : p.q12 ≠ p.q22) :
    ∃ E1 S1, plySums [p.read] = .ok (E1, S1) ∧ plySums [p.read].reverse = .ok (E1, S1) ∧ S1 ≠ -S1 := by
  refine ⟨_, _, rfl, rfl, ?_⟩
  have := (C84.plane_violated p h hh hc hq _ _ rfl).1
  exact fun e => this (by linarith)

example : ∃ E1 S1, plySums [C84.ply.read] = .ok (E1, S1) ∧ plySums [C84.ply.read].reverse = .ok (E1, S1) ∧ S1 ≠ -S1 :=
  section_violated _ (by norm_num [C84.ply]) (by norm_num [C84.ply]) (by norm_num [C84.ply]) (by norm_num [C84.ply])

end Verif.C102

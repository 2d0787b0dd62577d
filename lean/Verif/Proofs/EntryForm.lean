import Verif.Proofs.Tangent
import Verif.Basic.Entries
import Verif.Proofs.Bardell

/-!
# Entries of the linear stiffness, analytical and numerical
-/

set_option linter.unusedSectionVars false

namespace Verif

open Finset Spec Model

variable {K : Type*} [Field K]

/-- Unit vector. -/
def unit (r : ℕ) : ℕ → K := fun k => if k = r then 1 else 0

theorem Coo.entry_bilin (L : Coo K) (r c : ℕ) : Coo.entry L r c = Coo.bilin L (unit r) (unit c) := by
  induction L with
  | nil => simp
  | cons t L ih =>
    rw [Coo.bilin_cons, ← ih]
    simp only [Coo.entry, List.map_cons, List.sum_cons, unit]
    congr 1
    by_cases h1 : t.row = r <;> by_cases h2 : t.col = c <;> simp [h1, h2]

theorem Coo.entry_finalizeSym_pad (f : ℕ) (L : Coo K) (r c : ℕ) :
    Coo.entry (Coo.finalizeSym (Coo.pad f L)) r c = Coo.entry (Coo.finalizeSym L) r c := by
  rw [Coo.entry_finalizeSym, Coo.entry_finalizeSym, Coo.entry_pad, Coo.entry_pad]

theorem applyB_unit (S : Shape K) (P : Panel K) (s0 : ℕ) (B : ℕ → ℕ → Term K) (s : ℕ) (ξ η : K)
    {i j α : ℕ} (hi : i < P.m) (hj : j < P.n) (hα : α < 3) :
    applyB S P s0 (unit (s0 + dof P.m i j + α)) B s ξ η
      = (B s α).k * (S.D (B s α).p i ξ (P.xf α) * S.D (B s α).q j η (P.yf α)) := by
  unfold applyB
  rw [Finset.sum_eq_single ((i, j), α)]
  · simp [unit]
  · rintro ⟨⟨k, l⟩, β⟩ hm hne
    simp only [dofs, mem_product, mem_range] at hm
    have : s0 + dof P.m k l + β ≠ s0 + dof P.m i j + α := by
      intro h
      obtain ⟨x1, h1⟩ := dof_dvd P.m k l
      obtain ⟨x2, h2⟩ := dof_dvd P.m i j
      have hβ : β = α := by omega
      have hd : dof P.m k l = dof P.m i j := by omega
      obtain ⟨h3, h4⟩ := dof_inj hm.1.1 hi hd
      exact hne (by rw [h3, h4, hβ])
    simp [unit, this]
  · intro h
    exact absurd (by simp [dofs, hi, hj, hα]) h

variable [CharZero K] [DecidableEq K]

theorem lin_plate (S : Shape K) (P : Panel K) (s0 : ℕ) (c : ℕ → K) (s : ℕ) (hs : s < 6) (x y : K) :
    lin 0 S P s0 c s x y
      = applyB S P s0 c (plateB P.a P.b) s (2 / P.a * x - 1) (2 / P.b * y - 1) := by
  rw [applyB_plate S P s0 c s hs]
  interval_cases s <;> simp [lin, plateStrain]

theorem lin_cyl (S : Shape K) (P : Panel K) (s0 : ℕ) (c : ℕ → K) (s : ℕ) (hs : s < 6) (x y : K) :
    lin (1 / P.r) S P s0 c s x y
      = applyB S P s0 c (cylB P.a P.b P.r) s (2 / P.a * x - 1) (2 / P.b * y - 1) := by
  rw [applyB_cyl S P s0 c s hs]
  interval_cases s <;> simp [lin, cylStrain, plateStrain]
  ring

/-- The panel is integrated over its whole area. -/
def FullDomain (P : Panel K) : Prop := xdom P = (0, P.a) ∧ ydom P = (0, P.b)

theorem gaussP_full (G : GaussTab K) (nx ny : ℕ) (P : Panel K) (ha : P.a ≠ 0) (hb : P.b ≠ 0)
    (hP : FullDomain P) (g : ℕ → ℕ → K → K → K) :
    gaussP G nx ny P (fun p q x y => g p q (2 / P.a * x - 1) (2 / P.b * y - 1))
      = P.a * P.b / 4 * ∑ p ∈ range nx, ∑ q ∈ range ny,
          G.wt nx p * G.wt ny q * g p q (G.pt nx p) (G.pt ny q) := by
  unfold gaussP gauss node
  rw [hP.1, hP.2, Finset.mul_sum]
  refine Finset.sum_congr rfl fun p _ => ?_
  rw [Finset.mul_sum]
  refine Finset.sum_congr rfl fun q _ => ?_
  have e1 : 2 / P.a * ((0 + P.a) / 2 + (P.a - 0) / 2 * G.pt nx p) - 1 = G.pt nx p := by
    field_simp; ring
  have e2 : 2 / P.b * ((0 + P.b) / 2 + (P.b - 0) / 2 * G.pt ny q) - 1 = G.pt ny q := by
    field_simp; ring
  simp only [e1, e2]
  ring

/-- Gauss sum of the product of derivative `p` of function `i` and derivative `q` of `k`. -/
def ruleGet (S : Shape K) (G : GaussTab K) (n p q i k : ℕ) (fa fb : Flags K) : K :=
  ∑ g ∈ range n, G.wt n g * (S.D p i (G.pt n g) fa * S.D q k (G.pt n g) fb)

/-- The bilinear formula of the linear stiffness with two tables of integrals. -/
def stiff (P : Panel K) (F : ℕ → ℕ → K) (B : ℕ → ℕ → Term K)
    (X Y : ℕ → ℕ → ℕ → ℕ → Flags K → Flags K → K) (i k j l α β : ℕ) : K :=
  P.a * P.b / 4 * ∑ s ∈ range 6, ∑ t ∈ range 6, F s t * ((B s α).k * (B t β).k) *
    (X (B s α).p (B t β).p i k (P.xf α) (P.xf β) * Y (B s α).q (B t β).q j l (P.yf α) (P.yf β))

/-- Entry of the Gauss sum of the strain products. -/
theorem work_unit (S : Shape K) (G : GaussTab K) (P : Panel K) (ha : P.a ≠ 0) (hb : P.b ≠ 0)
    (hP : FullDomain P) (F : ℕ → ℕ → K) (s0 nx ny : ℕ)
    (B : ℕ → ℕ → Term K) {i k j l α β : ℕ} (hi : i < P.m) (hk : k < P.m) (hj : j < P.n)
    (hl : l < P.n) (hα : α < 3) (hβ : β < 3) :
    (gaussP G nx ny P fun _ _ x y => work F
        (fun s => applyB S P s0 (unit (s0 + dof P.m k l + β)) B s (2 / P.a * x - 1)
          (2 / P.b * y - 1))
        (fun s => applyB S P s0 (unit (s0 + dof P.m i j + α)) B s (2 / P.a * x - 1)
          (2 / P.b * y - 1)))
      = stiff P F B (ruleGet S G nx) (ruleGet S G ny) i k j l α β := by
  simp only [applyB_unit S P s0 B _ _ _ hi hj hα, applyB_unit S P s0 B _ _ _ hk hl hβ]
  rw [gaussP_full G nx ny P ha hb hP (fun _ _ ξ η => work F
    (fun s => (B s β).k * (S.D (B s β).p k ξ (P.xf β) * S.D (B s β).q l η (P.yf β)))
    (fun s => (B s α).k * (S.D (B s α).p i ξ (P.xf α) * S.D (B s α).q j η (P.yf α))))]
  unfold stiff ruleGet
  congr 1
  simp only [work, resultant]
  have e : ∀ p q, G.wt nx p * G.wt ny q * (∑ s ∈ range 6, (∑ t ∈ range 6, F s t *
        ((B t β).k * (S.D (B t β).p k (G.pt nx p) (P.xf β) * S.D (B t β).q l (G.pt ny q) (P.yf β))))
        * ((B s α).k * (S.D (B s α).p i (G.pt nx p) (P.xf α) * S.D (B s α).q j (G.pt ny q) (P.yf α))))
      = ∑ s ∈ range 6, ∑ t ∈ range 6, F s t * ((B s α).k * (B t β).k) *
        ((G.wt nx p * (S.D (B s α).p i (G.pt nx p) (P.xf α) * S.D (B t β).p k (G.pt nx p) (P.xf β)))
        * (G.wt ny q * (S.D (B s α).q j (G.pt ny q) (P.yf α) *
            S.D (B t β).q l (G.pt ny q) (P.yf β)))) := by
    intro p q
    rw [Finset.mul_sum]
    refine Finset.sum_congr rfl fun s _ => ?_
    rw [Finset.sum_mul, Finset.mul_sum]
    exact Finset.sum_congr rfl fun t _ => by ring
  simp only [e]
  rw [Finset.sum_congr rfl fun p _ => Finset.sum_comm]
  rw [Finset.sum_comm]
  refine Finset.sum_congr rfl fun s _ => ?_
  rw [Finset.sum_congr rfl fun p _ => Finset.sum_comm]
  rw [Finset.sum_comm]
  refine Finset.sum_congr rfl fun t _ => ?_
  rw [Finset.sum_mul_sum, Finset.mul_sum]
  refine Finset.sum_congr rfl fun p _ => ?_
  rw [Finset.mul_sum]

/-- Entries of the numerically integrated linear stiffness, plate. -/
theorem plate_num_entry (S : Shape K) (G : GaussTab K) (P : Panel K) (ha : P.a ≠ 0)
    (hb : P.b ≠ 0) (hP : FullDomain P) (F : ℕ → ℕ → K) (hF : ABDSym F) (cs : ℕ → K)
    (s0 nx ny NL : ℕ) (hNL : NL ≠ 1) {i k j l α β : ℕ} (hi : i < P.m) (hk : k < P.m)
    (hj : j < P.n) (hl : l < P.n) (hα : α < 3) (hβ : β < 3) :
    Coo.entry (Coo.finalizeSym (plateFkCnumF S G P (fun _ _ => F) cs s0 s0 nx ny NL))
      (s0 + dof P.m i j + α) (s0 + dof P.m k l + β)
      = stiff P F (plateB P.a P.b) (ruleGet S G nx) (ruleGet S G ny) i k j l α β := by
  rw [Coo.entry_bilin, plateFkCnum_bilin S G P ha hb _ (fun _ _ => hF)]
  simp only [if_neg hNL]
  rw [← work_unit S G P ha hb hP F s0 nx ny (plateB P.a P.b) hi hk hj hl hα hβ]
  exact gaussP_congr fun p _ q _ x y => work_congr F (fun s hs => lin_plate S P s0 _ s hs x y)
    (fun s hs => lin_plate S P s0 _ s hs x y)

/-- Entries of the numerically integrated linear stiffness, cylinder. -/
theorem cyl_num_entry (S : Shape K) (G : GaussTab K) (P : Panel K) (ha : P.a ≠ 0)
    (hb : P.b ≠ 0) (hr : P.r ≠ 0) (hP : FullDomain P) (F : ℕ → ℕ → K) (hF : ABDSym F) (cs : ℕ → K)
    (s0 nx ny NL : ℕ) (hNL : NL ≠ 1) {i k j l α β : ℕ} (hi : i < P.m) (hk : k < P.m)
    (hj : j < P.n) (hl : l < P.n) (hα : α < 3) (hβ : β < 3) :
    Coo.entry (Coo.finalizeSym (cylFkCnumF S G P (fun _ _ => F) cs s0 s0 nx ny NL))
      (s0 + dof P.m i j + α) (s0 + dof P.m k l + β)
      = stiff P F (cylB P.a P.b P.r) (ruleGet S G nx) (ruleGet S G ny) i k j l α β := by
  rw [Coo.entry_bilin, cylFkCnum_bilin S G P ha hb hr _ (fun _ _ => hF)]
  simp only [if_neg hNL]
  rw [← work_unit S G P ha hb hP F s0 nx ny (cylB P.a P.b P.r) hi hk hj hl hα hβ]
  exact gaussP_congr fun p _ q _ x y => work_congr F (fun s hs => lin_cyl S P s0 _ s hs x y)
    (fun s hs => lin_cyl S P s0 _ s hs x y)

/-- The tables of products of equal derivatives are symmetric (see C04). -/
structure Tab.Sym (I : Tab K) : Prop where
  ff : ∀ i j fa fb, I.ff i j fa fb = I.ff j i fb fa
  fpfp : ∀ i j fa fb, I.fpfp i j fa fb = I.fpfp j i fb fa
  fppfpp : ∀ i j fa fb, I.fppfpp i j fa fb = I.fppfpp j i fb fa

theorem Tab.Sym.get {I : Tab K} (h : I.Sym) (p q i k : ℕ) (fa fb : Flags K) :
    I.get p q i k fa fb = I.get q p k i fb fa := by
  match p, q with
  | 0, 0 => exact h.ff ..
  | 0, 1 => rfl
  | 1, 0 => rfl
  | 0, q+2 => rfl
  | p+2, 0 => rfl
  | 1, 1 => exact h.fpfp ..
  | 1, q+2 => rfl
  | p+2, 1 => rfl
  | p+2, q+2 => exact h.fppfpp ..

theorem stiff_symm (P : Panel K) (F : ℕ → ℕ → K) (hF : ∀ s t, F s t = F t s)
    (B : ℕ → ℕ → Term K) {I : Tab K} (hI : I.Sym) (i k j l α β : ℕ) :
    stiff P F B I.get I.get i k j l α β = stiff P F B I.get I.get k i l j β α := by
  unfold stiff
  congr 1
  rw [Finset.sum_comm]
  refine Finset.sum_congr rfl fun s _ => Finset.sum_congr rfl fun t _ => ?_
  rw [hF t s, hI.get, hI.get (B t α).q]
  ring

/-- Entries of the analytical linear stiffness, plate. -/
theorem plate_ana_entry {I : Tab K} (hI : I.Sym) (P : Panel K) (ha : P.a ≠ 0)
    (hb : P.b ≠ 0) (F : ℕ → ℕ → K) (hF : ABDSym F) (s0 : ℕ) {i k j l α β : ℕ} (hi : i < P.m)
    (hk : k < P.m) (hj : j < P.n) (hl : l < P.n) (hα : α < 3) (hβ : β < 3) :
    Coo.entry (Coo.finalizeSym (plateFk0 I P F s0 s0))
      (s0 + dof P.m i j + α) (s0 + dof P.m k l + β)
      = stiff P F (plateB P.a P.b) I.get I.get i k j l α β := by
  rw [plateFk0, Coo.entry_finalizeSym_pad,
    entry_finalize_symBuild s0 P.m P.n _ (by decide) (by decide) _
      (fun i k j l a b => plateAna_fk0_zero I P _ i k j l a b)
      (fun i k j l a b ha' hb' => ?_) hi hk hj hl hα hβ]
  · exact plate_fk0_entry I P F hF ha hb i k j l α β hα hβ
  · rw [plate_fk0_entry I P F hF ha hb i k j l a b ha' hb',
      plate_fk0_entry I P F hF ha hb k i l j b a hb' ha']
    exact stiff_symm P F hF.symm (plateB P.a P.b) hI i k j l a b

/-- Entries of the analytical linear stiffness, cylinder. -/
theorem cyl_ana_entry {I : Tab K} (hI : I.Sym) (P : Panel K) (ha : P.a ≠ 0)
    (hb : P.b ≠ 0) (hr : P.r ≠ 0) (F : ℕ → ℕ → K) (hF : ABDSym F) (s0 : ℕ) {i k j l α β : ℕ}
    (hi : i < P.m) (hk : k < P.m) (hj : j < P.n) (hl : l < P.n) (hα : α < 3) (hβ : β < 3) :
    Coo.entry (Coo.finalizeSym (cylFk0 I P F s0 s0))
      (s0 + dof P.m i j + α) (s0 + dof P.m k l + β)
      = stiff P F (cylB P.a P.b P.r) I.get I.get i k j l α β := by
  rw [cylFk0, Coo.entry_finalizeSym_pad,
    entry_finalize_symBuild s0 P.m P.n _ (by decide) (by decide) _
      (fun i k j l a b => cylAna_fk0_zero I P _ i k j l a b)
      (fun i k j l a b ha' hb' => ?_) hi hk hj hl hα hβ]
  · exact cyl_fk0_entry I P F hF ha hb hr i k j l α β hα hβ
  · rw [cyl_fk0_entry I P F hF ha hb hr i k j l a b ha' hb',
      cyl_fk0_entry I P F hF ha hb hr k i l j b a hb' ha']
    exact stiff_symm P F hF.symm (cylB P.a P.b P.r) hI i k j l a b

end Verif

import Verif.Spec.Stiffer
import Verif.Proofs.BayRigid
import Verif.Proofs.Renumber

/-!
# Lemmas on bays with stiffeners added
-/

set_option linter.unusedSectionVars false

namespace Verif

open Spec Model

theorem mapE_append {α β : Type} {f : α → Except Fail β} {l1 l2 : List α} {l' : List β}
    (h : mapE f (l1 ++ l2) = .ok l') :
    ∃ a b, mapE f l1 = .ok a ∧ mapE f l2 = .ok b ∧ l' = a ++ b := by
  induction l1 generalizing l' with
  | nil => exact ⟨[], l', rfl, h, rfl⟩
  | cons x l1 ih =>
    rw [List.cons_append] at h
    unfold mapE at h
    obtain ⟨y, hy, h⟩ := bind_ok.1 h
    obtain ⟨ys, hys, h⟩ := bind_ok.1 h
    cases h
    obtain ⟨a, b, ha, hb, rfl⟩ := ih hys
    refine ⟨y :: a, b, ?_, hb, rfl⟩
    unfold mapE
    exact bind_ok.2 ⟨y, hy, bind_ok.2 ⟨a, ha, rfl⟩⟩

/-- The rebuild of a bay with stiffeners added. -/
theorem rebuild_stiffened {E : BayEnv ℝ} {B R' : Bay ℝ} {l1 : List (Blade1 ℝ)} {l2 : List (Blade2 ℝ)}
    (h : (stiffened B l1 l2).rebuild E = .ok R') :
    ∃ R r1 r2, B.rebuild E = .ok R ∧ R' = stiffened R r1 r2 ∧
      List.Forall₂ (fun s t => ∃ C, Blade1.rebuild E C s = .ok t) l1 r1 ∧
      List.Forall₂ (fun s t => ∃ C, Blade2.rebuild E C s = .ok t) l2 r2 := by
  unfold Bay.rebuild at h
  obtain ⟨⟨m, ps⟩, hp, h⟩ := bind_ok.1 h
  obtain ⟨b1, h1, h⟩ := bind_ok.1 h
  obtain ⟨b2, h2, h⟩ := bind_ok.1 h
  cases h
  obtain ⟨a1, r1, ha1, hr1, rfl⟩ := mapE_append h1
  obtain ⟨a2, r2, ha2, hr2, rfl⟩ := mapE_append h2
  refine ⟨{ B with model := m, panels := ps, blade1 := a1, blade2 := a2 }, r1, r2, ?_, rfl, (mapE_ok hr1).imp fun s t e => ⟨_, e⟩, (mapE_ok hr2).imp fun s t e => ⟨_, e⟩⟩
  unfold Bay.rebuild
  exact bind_ok.2 ⟨_, hp, bind_ok.2 ⟨a1, ha1, bind_ok.2 ⟨a2, ha2, rfl⟩⟩⟩

section
variable {E : BayEnv ℝ} {R : Bay ℝ} {r1 : List (Blade1 ℝ)} {r2 : List (Blade2 ℝ)}

theorem stiffened_blade2 {i : ℕ} (hi : i < R.blade2.length) :
    (stiffened R r1 r2).blade2[i]? = R.blade2[i]? := List.getElem?_append_left hi

theorem stiffened_start {i : ℕ} (hi : i ≤ R.blade2.length) :
    C52.start (stiffened R r1 r2) i = C52.start R i := by
  unfold C52.start
  have : (stiffened R r1 r2).blade2.take i = R.blade2.take i := by
    show (R.blade2 ++ r2).take i = _
    rw [List.take_append_of_le_length hi]
  rw [this]
  rfl

theorem stiffened_panel {k : ℕ} (hk : k < R.blade2.length + 1) :
    bayPanel (stiffened R r1 r2) k = bayPanel R k := by
  cases k with
  | zero => rfl
  | succ i =>
    show flangePanel _ _ = flangePanel _ _
    unfold flangePanel
    rw [stiffened_blade2 (by omega)]
    rfl

theorem stiffened_bayStart {k : ℕ} (hk : k < R.blade2.length + 1) :
    bayStart (stiffened R r1 r2) k = bayStart R k := by
  cases k with
  | zero => rfl
  | succ i => rw [bayStart_succ, bayStart_succ, stiffened_start (by omega)]

theorem stiffened_joint {i : ℕ} (hi : i < R.blade2.length) :
    bayJoint (stiffened R r1 r2) i = bayJoint R i := by
  unfold bayJoint
  rw [stiffened_blade2 hi]

end

/-! ## A part has one energy -/

section
variable {E : BayEnv ℝ} {R : Bay ℝ} {off : ℕ} {q q' : (ℕ → ℝ) → ℝ}

theorem own_one {g : Shell ℝ → Except Fail (Coo ℝ × Shell ℝ)} {o : Option (Shell ℝ)} (h : C52.Own g off o q)
    (h' : C52.Own g off o q') : q = q' := by
  funext v
  cases o with
  | none => rw [h v, h' v]
  | some b =>
    obtain ⟨L, t, e, w⟩ := h
    obtain ⟨L', t', e', w'⟩ := h'
    cases e.symm.trans e'
    rw [w v, w' v]

theorem beam_one {s : Blade1 ℝ} (h : C52.Beam E R s q) (h' : C52.Beam E R s q') : q = q' := by
  unfold C52.Beam at h h'
  funext v
  cases hs : s.sec with
  | none =>
    rw [hs] at h h'
    exact (h v).trans (h' v).symm
  | some c =>
    rw [hs] at h h'
    obtain ⟨bf, e, w⟩ := h
    obtain ⟨bf', e', w'⟩ := h'
    cases e.symm.trans e'
    rw [w v, w' v]

theorem joint_one {s : Blade2 ℝ} (h : C52.Joint E R off s q) (h' : C52.Joint E R off s q') : q = q' := by
  unfold C52.Joint at h h'
  funext v
  cases hf : s.flange with
  | none =>
    rw [hf] at h h'
    exact (h v).trans (h' v).symm
  | some f =>
    rw [hf] at h h'
    obtain ⟨p, p', f', l1, l2, kt, kr, a1, a2, a3, a4, a5, a6, w⟩ := h
    obtain ⟨x, x', g', m1, m2, ct, cr, b1, b2, b3, b4, b5, b6, w'⟩ := h'
    obtain rfl : p = x := by
      cases hb : s.base with
      | none =>
        rw [hb] at a1 b1
        exact Option.some.inj (a1.symm.trans b1)
      | some b =>
        rw [hb] at a1 b1
        exact a1.trans b1.symm
    cases a2.symm.trans b2
    cases a3.symm.trans b3
    cases a4.symm.trans b4
    cases a5.symm.trans b5
    cases a6.symm.trans b6
    rw [w v, w' v]

theorem blade1C_one {s : Blade1 ℝ} (h : C52.Blade1C E R s q) (h' : C52.Blade1C E R s q') : q = q' := by
  obtain ⟨qb, qf, h1, h2, h3⟩ := h
  obtain ⟨qb', qf', h1', h2', h3'⟩ := h'
  obtain rfl := own_one h1 h1'
  obtain rfl := beam_one h2 h2'
  exact funext fun v => (h3 v).trans (h3' v).symm

theorem blade2C_one {s : Blade2 ℝ} (h : C52.Blade2C E R off s q) (h' : C52.Blade2C E R off s q') : q = q' := by
  obtain ⟨qb, qf, qj, h1, h2, h3, h4⟩ := h
  obtain ⟨qb', qf', qj', h1', h2', h3', h4'⟩ := h'
  obtain rfl := own_one h1 h1'
  obtain rfl := own_one h2 h2'
  obtain rfl := joint_one h3 h3'
  exact funext fun v => (h4 v).trans (h4' v).symm

theorem beamG_one {s : Blade1 ℝ} (h : C52.BeamG E R s q) (h' : C52.BeamG E R s q') : q = q' := by
  unfold C52.BeamG at h h'
  funext v
  cases hs : s.sec with
  | none =>
    rw [hs] at h h'
    exact (h v).trans (h' v).symm
  | some c =>
    rw [hs] at h h'
    exact (h v).trans (h' v).symm

theorem forall₂_one {α β : Type} {P : α → β → Prop} (hP : ∀ a b b', P a b → P a b' → b = b') {l : List α}
    {Q Q' : List β} (h : List.Forall₂ P l Q) (h' : List.Forall₂ P l Q') : Q = Q' := by
  induction h generalizing Q' with
  | nil => cases h'; rfl
  | cons ha _ ih =>
    cases h' with
    | cons hb ht => rw [hP _ _ _ ha hb, ih ht]

theorem forall₂_append_left {α β : Type} {P : α → β → Prop} {l1 l2 : List α} {Q : List β}
    (h : List.Forall₂ P (l1 ++ l2) Q) : ∃ x y, List.Forall₂ P l1 x ∧ List.Forall₂ P l2 y ∧ Q = x ++ y := by
  induction l1 generalizing Q with
  | nil => exact ⟨[], Q, .nil, h, rfl⟩
  | cons a l1 ih =>
    cases h with
    | cons ha ht =>
      obtain ⟨x, y, hx, hy, rfl⟩ := ih ht
      exact ⟨_ :: x, y, .cons ha hx, hy, rfl⟩

theorem indexed_one {α β : Type} {P : ℕ → α → β → Prop} (hP : ∀ i a b b', P i a b → P i a b' → b = b')
    {l : List α} {Q Q' : List β} (n : Q.length = l.length) (n' : Q'.length = l.length)
    (h : ∀ i a b, l[i]? = some a → Q[i]? = some b → P i a b)
    (h' : ∀ i a b, l[i]? = some a → Q'[i]? = some b → P i a b) : Q = Q' := by
  refine List.ext_getElem (n.trans n'.symm) fun i h1 h2 => ?_
  exact hP i (l[i]'(n ▸ h1)) _ _ (h i _ _ (List.getElem?_eq_getElem _) (List.getElem?_eq_getElem h1))
    (h' i _ _ (List.getElem?_eq_getElem _) (List.getElem?_eq_getElem h2))

end

/-! ## Matrices lie inside their size -/

theorem calcKC_inside {E : Env ℝ} {s t : Shell ℝ} {L : Coo ℝ} {N r c : ℕ}
    (h : s.calcKC E { size := .num N, row0 := r, col0 := c, finalize := false } = .ok (L, t)) :
    ∀ x ∈ L, x.row < N ∧ x.col < N := by
  unfold Shell.calcKC at h
  obtain ⟨r, h1, h⟩ := bind_ok.1 h
  simp only [SizeArg.value] at h
  obtain ⟨_, -, h⟩ := bind_ok.1 h
  obtain ⟨kC, h2, h⟩ := bind_ok.1 h
  obtain ⟨kG, h3, h⟩ := bind_ok.1 h
  cases h
  intro x hx
  rcases List.mem_append.1 hx with hx | hx
  · unfold Shell.kCpart at h2
    obtain ⟨b, -, h2⟩ := bind_ok.1 h2
    exact sparse_within h2 x hx
  · unfold Shell.kGcte at h3
    split at h3
    · obtain ⟨_, -, h3⟩ := bind_ok.1 h3
      obtain ⟨b, -, h3⟩ := bind_ok.1 h3
      exact sparse_within h3 x hx
    · cases h3
      cases hx

theorem calcKG_inside {E : Env ℝ} {s t : Shell ℝ} {L : Coo ℝ} {N r c : ℕ}
    (h : s.calcKG E { size := .num N, row0 := r, col0 := c, finalize := false } = .ok (L, t)) :
    ∀ x ∈ L, x.row < N ∧ x.col < N := by
  unfold Shell.calcKG at h
  obtain ⟨r, h1, h⟩ := bind_ok.1 h
  simp only [SizeArg.value] at h
  obtain ⟨_, -, h⟩ := bind_ok.1 h
  obtain ⟨b, -, h⟩ := bind_ok.1 h
  obtain ⟨kG, h3, h⟩ := bind_ok.1 h
  cases h
  exact sparse_within h3

theorem optPart_inside {f : Shell ℝ → Except Fail (Coo ℝ × Shell ℝ)} {o o' : Option (Shell ℝ)} {L : Coo ℝ} {N : ℕ}
    (h : optPart f o = .ok (L, o')) (hf : ∀ b t, f b = .ok (L, t) → ∀ x ∈ L, x.row < N ∧ x.col < N) :
    ∀ x ∈ L, x.row < N ∧ x.col < N := by
  rcases optPart_ok h with ⟨rfl, -, rfl⟩ | ⟨b, t, rfl, -, hb⟩
  · simp
  · exact hf b t hb

theorem steps_inside {f : Bay ℝ → ℕ → Blade2 ℝ → Except Fail (Coo ℝ × Blade2 ℝ × Bay ℝ)} {N : ℕ}
    (hf : ∀ C off s L s' C', f C off s = .ok (L, s', C') → ∀ x ∈ L, x.row < N ∧ x.col < N) {B B2 : Bay ℝ} {off : ℕ}
    {l : List (Blade2 ℝ)} {X : List (ℕ × Coo ℝ × Blade2 ℝ)} (h : Steps f B off l X B2) :
    ∀ y ∈ X, ∀ x ∈ y.2.1, x.row < N ∧ x.col < N := by
  induction h with
  | nil => simp
  | cons hs _ _ ih =>
    intro y hy
    rcases List.mem_cons.1 hy with rfl | hy
    · exact hf _ _ _ _ _ _ hs
    · exact ih y hy

theorem assemble_inside {E : BayEnv ℝ} {B B' R : Bay ℝ} {k : Coo ℝ} {N : ℕ}
    {fp : ℕ → Shell ℝ → Except Fail (Coo ℝ × Shell ℝ)}
    {f1 : Bay ℝ → ℕ → Blade1 ℝ → Except Fail (Coo ℝ × Blade1 ℝ)}
    {f2 : ℕ → Bay ℝ → ℕ → Blade2 ℝ → Except Fail (Coo ℝ × Blade2 ℝ × Bay ℝ)}
    (h : B.assemble E fp f1 f2 = .ok (k, B')) (hR : B.rebuild E = .ok R) (hN : R.getSize = .ok N)
    (hp : ∀ s L t, fp N s = .ok (L, t) → ∀ x ∈ L, x.row < N ∧ x.col < N)
    (h1 : ∀ C s L t, f1 C N s = .ok (L, t) → ∀ x ∈ L, x.row < N ∧ x.col < N)
    (h2 : ∀ C off s L s' C', f2 N C off s = .ok (L, s', C') → ∀ x ∈ L, x.row < N ∧ x.col < N) :
    ∀ x ∈ k, x.row < N ∧ x.col < N := by
  obtain ⟨R', N', kd, r1, r2, -, XP, X1, X2, B2, g1, g2, g3, rfl⟩ := assemble_ok h
  cases hR.symm.trans r1
  cases hN.symm.trans r2
  refine finalizeSym_within fun x hx => ?_
  rcases List.mem_append.1 hx with hx | hx
  · rcases List.mem_append.1 hx with hx | hx
    · obtain ⟨L, hL, hx⟩ := List.mem_flatten.1 hx
      obtain ⟨y, hy, rfl⟩ := List.mem_map.1 hL
      obtain ⟨s, -, hs⟩ := C52.forall₂_mem_right g1 y hy
      exact hp s y.1 y.2 hs x hx
    · obtain ⟨L, hL, hx⟩ := List.mem_flatten.1 hx
      obtain ⟨y, hy, rfl⟩ := List.mem_map.1 hL
      obtain ⟨s, -, hs⟩ := C52.forall₂_mem_right g2 y hy
      exact h1 _ s y.1 y.2 hs x hx
  · obtain ⟨L, hL, hx⟩ := List.mem_flatten.1 hx
    obtain ⟨y, hy, rfl⟩ := List.mem_map.1 hL
    exact steps_inside h2 g3 y hy x hx

theorem bayKC_inside {E : BayEnv ℝ} {B B' R : Bay ℝ} {k : Coo ℝ} {N : ℕ} (h : B.calcKC E = .ok (k, B'))
    (hR : B.rebuild E = .ok R) (hN : R.getSize = .ok N) : ∀ x ∈ k, x.row < N ∧ x.col < N := by
  refine assemble_inside h hR hN (fun s L t hs => calcKC_inside hs) (fun C s L t hs => ?_)
    fun C off s L s' C' hs => ?_
  · unfold Blade1.calcKC at hs
    obtain ⟨s1, -, hs⟩ := bind_ok.1 hs
    obtain ⟨⟨Lb, b⟩, g1, hs⟩ := bind_ok.1 hs
    obtain ⟨Lf, g2, hs⟩ := bind_ok.1 hs
    cases hs
    intro x hx
    rcases List.mem_append.1 hx with hx | hx
    · exact optPart_inside g1 (fun b t hb => calcKC_inside hb) x hx
    · unfold Blade1.partC at g2
      split at g2
      · cases g2
        cases hx
      · obtain ⟨bf, -, g2⟩ := bind_ok.1 g2
        exact sparse_within g2 x hx
  · unfold Blade2.calcKC at hs
    obtain ⟨s1, -, hs⟩ := bind_ok.1 hs
    obtain ⟨⟨Lb, b⟩, g1, hs⟩ := bind_ok.1 hs
    obtain ⟨⟨Lf, s2, C2⟩, g2, hs⟩ := bind_ok.1 hs
    cases hs
    intro x hx
    rcases List.mem_append.1 hx with hx | hx
    · exact optPart_inside g1 (fun b t hb => calcKC_inside hb) x hx
    · unfold Blade2.flangeC at g2
      split at g2
      · cases g2
        cases hx
      · obtain ⟨⟨L1, f1⟩, e1, g2⟩ := bind_ok.1 g2
        obtain ⟨⟨kk, b3, f3, C3⟩, -, g2⟩ := bind_ok.1 g2
        obtain ⟨Lc, e2, g2⟩ := bind_ok.1 g2
        cases g2
        rcases List.mem_append.1 hx with hx | hx
        · exact calcKC_inside e1 x hx
        · exact sparse_within e2 x hx

theorem bayKG_inside {E : BayEnv ℝ} {B B' R : Bay ℝ} {k : Coo ℝ} {N : ℕ} (h : B.calcKG E none = .ok (k, B'))
    (hR : B.rebuild E = .ok R) (hN : R.getSize = .ok N) : ∀ x ∈ k, x.row < N ∧ x.col < N := by
  refine assemble_inside h hR hN (fun s L t hs => calcKG_inside hs) (fun C s L t hs => ?_)
    fun C off s L s' C' hs => ?_
  · unfold Blade1.calcKG at hs
    simp only [Option.isSome_none, Bool.false_eq_true, if_false] at hs
    obtain ⟨s1, -, hs⟩ := bind_ok.1 hs
    obtain ⟨Lf, g2, hs⟩ := bind_ok.1 hs
    cases hs
    intro x hx
    unfold Blade1.partG at g2
    split at g2
    · cases g2
      cases hx
    · exact sparse_within g2 x hx
  · unfold Blade2.calcKG at hs
    obtain ⟨s1, -, hs⟩ := bind_ok.1 hs
    obtain ⟨⟨Lf, f⟩, g1, hs⟩ := bind_ok.1 hs
    cases hs
    exact optPart_inside g1 fun b t hb => calcKG_inside hb

end Verif

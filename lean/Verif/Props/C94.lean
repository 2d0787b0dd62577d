import Verif.Spec.Added
import Verif.Props.C93
import Verif.Props.C81Ready

/-!
# C94: a new stiffener is the one described

`refused`: a stiffener without plies, or with a stack of which the thickness or the properties are missing,
is not added.  `base1`, `parts2`: what is added has the plies, place and size of the arguments.
`base_moves`: a base is a strip of the width `bb` about the station and moves with the skin.
`flange_edges`: the ends of a flange are held, and its edges at the skin and opposite to it are free,
whatever the supports of the bay.  `flange_rigid`: but the code suppresses the slopes of the membrane
displacements across these edges.  `moved_kC`, `moved_kG`, `moved_kM`: a 1D stiffener in another block has
the same matrices there.
-/

set_option linter.unusedSectionVars false

namespace Verif.C94

open Model Spec Finset Indep

section
variable {K : Type} [Field K] [LinearOrder K]

theorem map_const {α β : Type} (l : List α) (b : β) : (l.map fun _ => b) = List.replicate l.length b := by
  induction l with
  | nil => rfl
  | cons a l ih => rw [List.map_cons, ih]; rfl

/-- What is made of the arguments of a laminate. -/
theorem resolve_iff {A : LamArgs K} {st : List K} (hA : A.stack = some st)
    (r : Option (List K) × List K × List (List K)) :
    A.resolve = .ok r ↔ r.1 = some st ∧ Layers A st r.2.1 r.2.2 := by
  obtain ⟨r1, r2, r3⟩ := r
  unfold LamArgs.resolve Layers
  rw [hA]
  rcases h1 : A.plyts with _ | ts <;> rcases h2 : A.plyt with _ | t <;>
    rcases h3 : A.laminaprops with _ | ps <;> rcases h4 : A.laminaprop with _ | p <;>
      simp [map_const, Prod.ext_iff, eq_comm]

theorem resolve_missing {A : LamArgs K} (hA : Unspecified A) : A.resolve = .error (.raised .valueError) := by
  obtain ⟨h, h1⟩ := hA
  obtain ⟨st, hst⟩ := Option.ne_none_iff_exists'.1 h
  unfold LamArgs.resolve
  rw [hst]
  rcases h1 with ⟨e1, e2⟩ | ⟨e1, e2⟩
  · simp [e1, e2]
  · rw [e1, e2]
    rcases A.plyts with _ | ts <;> rcases A.plyt with _ | t <;> rfl

theorem resolve_error {A : LamArgs K} {e : Fail} (h : A.resolve = .error e) : e = .raised .valueError := by
  unfold LamArgs.resolve at h
  split at h
  · cases h
  · split at h
    · cases h; rfl
    · cases h; rfl
    · cases h

/-- **C94, what is refused.** -/
theorem refused (E : BayEnv K) (B : Bay K) (ys : K) (rho bb bf : Option K) {b f : LamArgs K} (mf nf : ℕ)
    (h : (b.stack = none ∧ f.stack = none) ∨ Unspecified b ∨ Unspecified f) :
    B.addBlade1 E ys rho bb bf b f = .error (.raised .valueError) ∧
      B.addBlade2 E ys rho bb bf b f mf nf = .error (.raised .valueError) := by
  unfold Bay.addBlade1 Bay.addBlade2
  by_cases h0 : b.stack = none ∧ f.stack = none
  · simp [h0]
  · have h := h.resolve_left h0
    have hc : (b.stack.isNone && f.stack.isNone) = false := by
      rw [Bool.and_eq_false_iff]
      rcases hb : b.stack with _ | x
      · rcases hf : f.stack with _ | y
        · exact absurd ⟨hb, hf⟩ h0
        · simp
      · simp
    rw [hc]
    simp only [Bool.false_eq_true, if_false]
    rcases hb : b.resolve with e | x
    · rw [resolve_error hb]
      exact ⟨rfl, rfl⟩
    · rcases h with h | h
      · rw [resolve_missing h] at hb
        cases hb
      · rw [resolve_missing h]
        exact ⟨rfl, rfl⟩

theorem resolve_none {A : LamArgs K} {r : Option (List K) × List K × List (List K)} (hA : A.stack = none)
    (h : A.resolve = .ok r) : r.1 = none := by
  unfold LamArgs.resolve at h
  rw [hA] at h
  cases h
  rfl

theorem number_some {o : Option K} {x : K} (h : Model.number o = .ok x) : o = some x := by
  unfold Model.number at h
  cases o with
  | none => cases h
  | some y => cases h; rfl

/-- **C94, the base of a 1D stiffener.** -/
theorem base1 (E : BayEnv K) (B B' : Bay K) (ys : K) (rho bb bf : Option K) (b f : LamArgs K)
    (h : B.addBlade1 E ys rho bb bf b f = .ok B') :
    ∃ s, B'.blade1 = B.blade1 ++ [s] ∧ s.rho = rho.getD B.rho ∧ s.bf = bf ∧ (s.base = none ↔ b.stack = none) ∧
      (s.sec = none ↔ f.stack = none) ∧
      (∀ st, f.stack = some st → s.fstack = some st ∧ Layers f st s.fplyts s.flaminaprops) ∧
      ∀ sh, s.base = some sh → Plied b sh ∧ sh.rho = rho.getD B.rho ∧
        ∃ w, bb = some w ∧ sh.pan = { B.skin with x1 := -1, x2 := 1, y1 := ys - w / 2, y2 := ys + w / 2 } := by
  unfold Bay.addBlade1 at h
  split at h
  · cases h
  obtain ⟨x, hx, h⟩ := bind_ok.1 h
  obtain ⟨y, hy, h⟩ := bind_ok.1 h
  obtain ⟨ij, hij, h⟩ := bind_ok.1 h
  obtain ⟨s, hs, h⟩ := bind_ok.1 h
  cases h
  unfold Blade1.rebuild at hs
  obtain ⟨pq, g1, hs⟩ := bind_ok.1 hs
  obtain ⟨pl, g2, hs⟩ := bind_ok.1 hs
  obtain ⟨ba, g3, hs⟩ := bind_ok.1 hs
  obtain ⟨w, g4, hs⟩ := bind_ok.1 hs
  obtain ⟨se, g5, hs⟩ := bind_ok.1 hs
  cases hs
  refine ⟨_, rfl, rfl, rfl, ?_, ?_, ?_, ?_⟩
  · rcases hb : b.stack with _ | st
    · have := resolve_none hb hx
      unfold Blade1.freshBase at g3
      simp only [this] at g3
      cases g3
      simp
    · have := ((resolve_iff hb x).1 hx).1
      unfold Blade1.freshBase at g3
      simp only [this] at g3
      obtain ⟨v, -, g3⟩ := bind_ok.1 g3
      cases g3
      simp
  · rcases hb : f.stack with _ | st
    · have := resolve_none hb hy
      unfold Blade1.flangePlies at g2
      simp only [this] at g2
      cases g2
      cases g5
      simp
    · have := ((resolve_iff hb y).1 hy).1
      unfold Blade1.flangePlies at g2
      simp only [this] at g2
      obtain ⟨v, -, g2⟩ := bind_ok.1 g2
      obtain ⟨l, -, g2⟩ := bind_ok.1 g2
      cases g2
      obtain ⟨ef, -, g5⟩ := bind_ok.1 g5
      cases g5
      simp
  · intro st hst
    exact ⟨((resolve_iff hst y).1 hy).1, ((resolve_iff hst y).1 hy).2⟩
  · intro sh hsh
    rcases hb : b.stack with _ | st
    · have := resolve_none hb hx
      unfold Blade1.freshBase at g3
      simp only [this] at g3
      cases g3
      cases hsh
    · obtain ⟨e1, e2⟩ := (resolve_iff hb x).1 hx
      unfold Blade1.freshBase at g3
      simp only [e1] at g3
      obtain ⟨v, hv, g3⟩ := bind_ok.1 g3
      cases g3
      cases hsh
      exact ⟨e2, rfl, v, number_some hv, rfl⟩

/-- **C94, the base and the flange of a 2D stiffener.** -/
theorem parts2 (E : BayEnv K) (B B' : Bay K) (ys : K) (rho bb bf : Option K) (b f : LamArgs K) (mf nf : ℕ)
    (h : B.addBlade2 E ys rho bb bf b f mf nf = .ok B') :
    ∃ s, B'.blade2 = B.blade2 ++ [s] ∧ s.rho = rho.getD B.rho ∧ (s.base = none ↔ b.stack = none) ∧
      (s.flange = none ↔ f.stack = none) ∧
      (∀ sh, s.base = some sh → Plied b sh ∧ sh.rho = rho.getD B.rho ∧
        ∃ w, bb = some w ∧ sh.pan = { B.skin with x1 := -1, x2 := 1, y1 := ys - w / 2, y2 := ys + w / 2 }) ∧
      ∀ sh, s.flange = some sh → Plied f sh ∧ sh.rho = rho.getD B.rho ∧ sh.offset = 0 ∧
        sh.model.bind kindOf = some .plate ∧ sh.pan.m = mf ∧ sh.pan.n = nf ∧ sh.pan.a = B.skin.a ∧
        bf = some sh.pan.b ∧ ∃ w rr st ts ps, sh.pan = (B.newFlange mf nf w rr st ts ps).pan := by
  unfold Bay.addBlade2 at h
  split at h
  · cases h
  obtain ⟨x, hx, h⟩ := bind_ok.1 h
  obtain ⟨y, hy, h⟩ := bind_ok.1 h
  obtain ⟨ij, hij, h⟩ := bind_ok.1 h
  obtain ⟨ob, hob, h⟩ := bind_ok.1 h
  obtain ⟨of, hof, h⟩ := bind_ok.1 h
  obtain ⟨s, hs, h⟩ := bind_ok.1 h
  cases h
  have hrho : s.rho = rho.getD B.rho := by
    unfold Blade2.rebuild at hs
    obtain ⟨pq, g1, hs⟩ := bind_ok.1 hs
    obtain ⟨pl, g2, hs⟩ := bind_ok.1 hs
    obtain ⟨ba, g3, hs⟩ := bind_ok.1 hs
    cases hs
    rfl
  obtain ⟨kf, kb, -⟩ := blade2_kept hs
  have hb' : (ob = none ↔ b.stack = none) ∧ ∀ sh, ob = some sh → Plied b sh ∧ sh.rho = rho.getD B.rho ∧
      ∃ w, bb = some w ∧ sh.pan = { B.skin with x1 := -1, x2 := 1, y1 := ys - w / 2, y2 := ys + w / 2 } := by
    unfold Bay.baseOf at hob
    rcases hb : b.stack with _ | st
    · simp only [resolve_none hb hx] at hob
      cases hob
      simp
    · obtain ⟨e1, e2⟩ := (resolve_iff hb x).1 hx
      simp only [e1] at hob
      obtain ⟨v, hv, hob⟩ := bind_ok.1 hob
      split at hob
      · cases hob
        refine ⟨by simp, fun sh hsh => ?_⟩
        cases hsh
        exact ⟨e2, rfl, v, number_some hv, rfl⟩
      · cases hob
  have hf' : (of = none ↔ f.stack = none) ∧ ∀ sh, of = some sh → Plied f sh ∧ sh.rho = rho.getD B.rho ∧
      sh.offset = 0 ∧ sh.model.bind kindOf = some .plate ∧ sh.pan.m = mf ∧ sh.pan.n = nf ∧
      sh.pan.a = B.skin.a ∧ bf = some sh.pan.b ∧ ∃ w rr st ts ps, sh.pan = (B.newFlange mf nf w rr st ts ps).pan := by
    unfold Bay.flangeOf at hof
    rcases hb : f.stack with _ | st
    · simp only [resolve_none hb hy] at hof
      cases hof
      simp
    · obtain ⟨e1, e2⟩ := (resolve_iff hb y).1 hy
      simp only [e1] at hof
      obtain ⟨v, hv, hof⟩ := bind_ok.1 hof
      cases hof
      refine ⟨by simp, fun sh hsh => ?_⟩
      cases hsh
      exact ⟨e2, rfl, rfl, (by decide +kernel : kindOf "plate_clpt_donnell_bardell" = some .plate), rfl, rfl, rfl, number_some hv, v, rho.getD B.rho, st, _, _, rfl⟩
  refine ⟨s, rfl, hrho, ?_, ?_, ?_, ?_⟩
  · rw [← hb'.1]
    rcases kb with ⟨e, e'⟩ | ⟨g, w, e, e'⟩
    · simp [e', show ob = none from e]
    · simp [e', show ob = some g from e]
  · rw [← hf'.1]
    rcases kf with ⟨e, e'⟩ | ⟨g, w, e, e'⟩
    · simp [e', show of = none from e]
    · simp [e', show of = some g from e]
  · intro sh hsh
    rcases kb with ⟨e, e'⟩ | ⟨g, w, e, e'⟩
    · rw [e'] at hsh; cases hsh
    · rw [e'] at hsh
      cases hsh
      exact hb'.2 g e
  · intro sh hsh
    rcases kf with ⟨e, e'⟩ | ⟨g, w, e, e'⟩
    · rw [e'] at hsh; cases hsh
    · rw [e'] at hsh
      cases hsh
      exact hf'.2 g e

theorem strip (P : Panel K) (ys w : K) (h2 : (2 : K) ≠ 0) :
    Strip { P with x1 := -1, x2 := 1, y1 := ys - w / 2, y2 := ys + w / 2 } ys w := by
  constructor
  · show ys + w / 2 - (ys - w / 2) = w
    field_simp
    ring
  · show ys - w / 2 + (ys + w / 2) = 2 * ys
    ring

/-! ## Another block -/

/-- Both matrices have the same quadratic form, the first one on the amplitudes from `s0` on. -/
def Moved (s0 : ℕ) (L L0 : Coo K) : Prop :=
  ∀ v, Coo.quad (Coo.finalizeSym L) v = Coo.quad (Coo.finalizeSym L0) fun k => v (s0 + k)

theorem Moved.append {s0 : ℕ} {L L0 M M0 : Coo K} (h : Moved s0 L L0) (h' : Moved s0 M M0) :
    Moved s0 (L ++ M) (L0 ++ M0) := fun v => by
  rw [Coo.finalizeSym_append_quad, Coo.finalizeSym_append_quad, h, h']

theorem Moved.nil (s0 : ℕ) : Moved s0 ([] : Coo K) [] := fun v => by
  simp [Coo.finalizeSym, Coo.quad]

/-- The base of a stiffener has the terms of the skin. -/
def Fits (B : Bay K) (s : Blade1 K) : Prop :=
  ∀ b, s.base = some b → b.pan.m = B.skin.m ∧ b.pan.n = B.skin.n

theorem fits_rebuild {E : BayEnv K} {B : Bay K} {s t : Blade1 K} (hf : Fits B s) (h : s.rebuild E B = .ok t) :
    Fits B t := by
  intro b hb
  rcases blade1_base h with ⟨e, -⟩ | ⟨st, bb, hh, -, -, e⟩
  · exact hf b (by rw [← e, hb])
  · rw [e] at hb
    cases hb
    exact ⟨rfl, rfl⟩

variable {E : BayEnv K} {B : Bay K} {N s0 : ℕ} {s t t0 : Blade1 K} {L L0 : Coo K}

/-- **C94, the stiffness in another block.** -/
theorem moved_kC (hf : Fits B s) (hN : s0 + 3 * B.skin.m * B.skin.n ≤ N)
    (h : s.calcKC E B N s0 s0 = .ok (L, t)) (h0 : s.calcKC E B N 0 0 = .ok (L0, t0)) :
    t = t0 ∧ Moved s0 L L0 := by
  unfold Blade1.calcKC at h h0
  obtain ⟨r, hr, h⟩ := bind_ok.1 h
  obtain ⟨r', hr', h0⟩ := bind_ok.1 h0
  rw [hr] at hr'
  cases hr'
  obtain ⟨⟨Lb, b⟩, h1, h⟩ := bind_ok.1 h
  obtain ⟨Lf, h2, h⟩ := bind_ok.1 h
  obtain ⟨⟨Lb', b'⟩, g1, h0⟩ := bind_ok.1 h0
  obtain ⟨Lf', g2, h0⟩ := bind_ok.1 h0
  cases h
  cases h0
  have hb : b = b' ∧ Moved s0 Lb Lb' := by
    rcases optPart_ok h1 with ⟨e1, rfl, rfl⟩ | ⟨x, y, e1, rfl, e⟩ <;>
      rcases optPart_ok g1 with ⟨e1', rfl, rfl⟩ | ⟨x', y', e1', rfl, e'⟩
    · exact ⟨rfl, Moved.nil s0⟩
    · rw [e1] at e1'; cases e1'
    · rw [e1] at e1'; cases e1'
    · rw [e1] at e1'
      cases e1'
      have ht := fits_rebuild hf hr x e1
      obtain ⟨q, M, k1, k2, k3, k4⟩ := calcKC_part e (by rw [ht.1, ht.2]; exact hN)
      obtain ⟨q', M', l1, l2, l3, l4⟩ := calcKC_part (s0 := 0) e' (by rw [ht.1, ht.2]; omega)
      rw [k3] at l3
      cases l3
      exact ⟨rfl, fun v => by rw [k4, l4]; simp⟩
  refine ⟨by rw [hb.1], hb.2.append ?_⟩
  unfold Blade1.partC at h2 g2
  cases hsec : r.sec with
  | none =>
    simp only [hsec] at h2 g2
    cases h2
    cases g2
    exact Moved.nil s0
  | some c =>
    simp only [hsec] at h2 g2
    obtain ⟨bf, k1, h2⟩ := bind_ok.1 h2
    obtain ⟨bf', k2, g2⟩ := bind_ok.1 g2
    rw [k1] at k2
    cases k2
    rw [toSparse_inv h2, toSparse_inv g2]
    exact fun v => (C26.fkCf_translated ..).quad_finalizeSym v

/-- **C94, the geometric stiffness in another block.** -/
theorem moved_kG {c : Option (CArg K)} (h : s.calcKG E B N s0 s0 c = .ok (L, t))
    (h0 : s.calcKG E B N 0 0 c = .ok (L0, t0)) : t = t0 ∧ Moved s0 L L0 := by
  unfold Blade1.calcKG at h h0
  split at h
  · cases h
  rename_i hc
  rw [if_neg hc] at h0
  obtain ⟨r, hr, h⟩ := bind_ok.1 h
  obtain ⟨r', hr', h0⟩ := bind_ok.1 h0
  rw [hr] at hr'
  cases hr'
  obtain ⟨Lf, h2, h⟩ := bind_ok.1 h
  obtain ⟨Lf', g2, h0⟩ := bind_ok.1 h0
  cases h
  cases h0
  refine ⟨rfl, ?_⟩
  unfold Blade1.partG at h2 g2
  cases hsec : t.sec with
  | none =>
    simp only [hsec] at h2 g2
    cases h2
    cases g2
    exact Moved.nil s0
  | some c =>
    simp only [hsec] at h2 g2
    rw [toSparse_inv h2, toSparse_inv g2]
    exact fun v => (C26.fkGf_translated ..).quad_finalizeSym v

/-- **C94, the mass in another block.** -/
theorem moved_kM (hf : Fits B s) (hN : s0 + 3 * B.skin.m * B.skin.n ≤ N)
    (h : s.calcKM E B N s0 s0 = .ok (L, t)) (h0 : s.calcKM E B N 0 0 = .ok (L0, t0)) :
    t = t0 ∧ Moved s0 L L0 := by
  unfold Blade1.calcKM at h h0
  obtain ⟨r, hr, h⟩ := bind_ok.1 h
  obtain ⟨r', hr', h0⟩ := bind_ok.1 h0
  rw [hr] at hr'
  cases hr'
  obtain ⟨⟨Lb, b⟩, h1, h⟩ := bind_ok.1 h
  obtain ⟨Lf, h2, h⟩ := bind_ok.1 h
  obtain ⟨⟨Lb', b'⟩, g1, h0⟩ := bind_ok.1 h0
  obtain ⟨Lf', g2, h0⟩ := bind_ok.1 h0
  cases h
  cases h0
  have hb : b = b' ∧ Moved s0 Lb Lb' := by
    rcases optPart_ok h1 with ⟨e1, rfl, rfl⟩ | ⟨x, y, e1, rfl, e⟩ <;>
      rcases optPart_ok g1 with ⟨e1', rfl, rfl⟩ | ⟨x', y', e1', rfl, e'⟩
    · exact ⟨rfl, Moved.nil s0⟩
    · rw [e1] at e1'; cases e1'
    · rw [e1] at e1'; cases e1'
    · rw [e1] at e1'
      cases e1'
      have ht := fits_rebuild hf hr x e1
      obtain ⟨M, k2, k3, k4⟩ := calcKM_part e (by rw [ht.1, ht.2]; exact hN)
      obtain ⟨M', l2, l3, l4⟩ := calcKM_part (s0 := 0) e' (by rw [ht.1, ht.2]; omega)
      rw [k3] at l3
      cases l3
      exact ⟨rfl, fun v => by rw [k4, l4]; simp⟩
  refine ⟨by rw [hb.1], hb.2.append ?_⟩
  unfold Blade1.partM at h2 g2
  cases hsec : r.sec with
  | none =>
    simp only [hsec] at h2 g2
    cases h2
    cases g2
    exact Moved.nil s0
  | some c =>
    simp only [hsec] at h2 g2
    obtain ⟨pq, k3, h2⟩ := bind_ok.1 h2
    obtain ⟨pq', k4, g2⟩ := bind_ok.1 g2
    rw [k3] at k4
    cases k4
    obtain ⟨bf, k1, h2⟩ := bind_ok.1 h2
    obtain ⟨bf', k2, g2⟩ := bind_ok.1 g2
    rw [k1] at k2
    cases k2
    rw [toSparse_inv h2, toSparse_inv g2]
    exact fun v => (C26.fkMf_translated ..).quad_finalizeSym v

end

/-! ## The edges of a flange -/

theorem f_first (i : ℕ) (fl : Flags ℝ) : (bardellShape ℝ).f i (-1) fl = if i = 0 then fl.t1 else 0 := by
  by_cases h : 4 ≤ i
  · rw [(C74.ends i h fl).2.1, if_neg (by omega)]
  · have : i = 0 ∨ i = 1 ∨ i = 2 ∨ i = 3 := by omega
    rcases this with rfl | rfl | rfl | rfl <;> simp [bardellShape, bardell, pev, flag] <;> norm_num <;> try simp

theorem f_last (i : ℕ) (fl : Flags ℝ) : (bardellShape ℝ).f i 1 fl = if i = 2 then fl.t2 else 0 := by
  by_cases h : 4 ≤ i
  · rw [(C74.ends i h fl).1, if_neg (by omega)]
  · have : i = 0 ∨ i = 1 ∨ i = 2 ∨ i = 3 := by omega
    rcases this with rfl | rfl | rfl | rfl <;> simp [bardellShape, bardell, pev, flag] <;> norm_num <;> try simp

theorem fp_first (i : ℕ) (fl : Flags ℝ) : (bardellShape ℝ).fp i (-1) fl = if i = 1 then fl.r1 / 2 else 0 := by
  by_cases h : 4 ≤ i
  · rw [(C74.ends i h fl).2.2.2, if_neg (by omega)]
  · have : i = 0 ∨ i = 1 ∨ i = 2 ∨ i = 3 := by omega
    rcases this with rfl | rfl | rfl | rfl <;>
      simp [bardellShape, bardell, pev, pder, pderFrom, flag] <;> ring_nf <;> try simp

theorem fp_last (i : ℕ) (fl : Flags ℝ) : (bardellShape ℝ).fp i 1 fl = if i = 3 then fl.r2 / 2 else 0 := by
  by_cases h : 4 ≤ i
  · rw [(C74.ends i h fl).2.2.1, if_neg (by omega)]
  · have : i = 0 ∨ i = 1 ∨ i = 2 ∨ i = 3 := by omega
    rcases this with rfl | rfl | rfl | rfl <;>
      simp [bardellShape, bardell, pev, pder, pderFrom, flag] <;> ring_nf <;> try simp

section
variable {P : Panel ℝ} {s0 : ℕ}

/-- One term of one component. -/
theorem one {α i j : ℕ} (hα : α < 3) (hi : i < P.m) (hj : j < P.n) (p q : ℕ) (ξ η : ℝ) :
    disp (bardellShape ℝ) P s0 (unit (s0 + 3 * (j * P.m + i) + α)) α p q ξ η
      = (2 / P.a) ^ p * (2 / P.b) ^ q *
        ((bardellShape ℝ).D p i ξ (P.xf α) * (bardellShape ℝ).D q j η (P.yf α)) := by
  have key : ∀ i' < P.m, ∀ j', s0 + 3 * (j' * P.m + i') + α = s0 + 3 * (j * P.m + i) + α → i' = i ∧ j' = j :=
    fun i' hi' j' e => by
      obtain ⟨-, h2, h3⟩ := split_number (s := s0) (j := j) hi hα
      obtain ⟨-, g2, g3⟩ := split_number (s := s0) (j := j') hi' hα
      rw [e] at g2 g3
      exact ⟨g2.symm.trans h2, g3.symm.trans h3⟩
  unfold disp
  congr 1
  rw [Finset.sum_eq_single i, Finset.sum_eq_single j]
  · rw [unit, if_pos rfl, one_mul]
  · intro j' _ hj'
    rw [unit, if_neg fun e => hj' (key i hi j' e).2, zero_mul]
  · exact fun h => absurd (mem_range.2 hj) h
  · intro i' hi' hne
    refine Finset.sum_eq_zero fun j' _ => ?_
    rw [unit, if_neg fun e => hne (key i' (mem_range.1 hi') j' e).1, zero_mul]
  · exact fun h => absurd (mem_range.2 hi) h

theorem f4 (fl : Flags ℝ) : (bardellShape ℝ).f 4 0 fl ≠ 0 := by
  simp [bardellShape, bardell, pev, flag, List.range_succ, bcoef]
  norm_num
  decide

/-- A panel with these flags has the supports of a flange. -/
theorem edges_of (ha : P.a ≠ 0) (hb : P.b ≠ 0) (hm : 5 ≤ P.m) (hn : 4 ≤ P.n)
    (hx : ∀ α, (P.xf α).t1 = 0 ∧ (P.xf α).t2 = 0) (hy : ∀ α, (P.yf α).t1 = 1 ∧ (P.yf α).t2 = 1)
    (hxw : (P.xf 2).r1 = 1 ∧ (P.xf 2).r2 = 1) (hyw : (P.yf 2).r1 = 1 ∧ (P.yf 2).r2 = 1) :
    Edges (bardellShape ℝ) P := by
  have x0 : 2 / P.a * 0 - 1 = -1 := by ring
  have x1 : 2 / P.a * P.a - 1 = 1 := by field_simp; ring
  have y0 : 2 / P.b * 0 - 1 = -1 := by ring
  have y1 : 2 / P.b * P.b - 1 = 1 := by field_simp; ring
  have xm : 2 / P.a * (P.a / 2) - 1 = 0 := by field_simp; ring
  have ym : 2 / P.b * (P.b / 2) - 1 = 0 := by field_simp; ring
  have h2 : (2 : ℕ) < 3 := by norm_num
  refine ⟨fun s0 c α y => ?_, fun s0 => ?_, fun s0 => ?_, fun s0 α hα => ?_, fun s0 α hα => ?_, fun s0 => ?_,
    fun s0 => ?_⟩
  · constructor
    · unfold u
      refine Finset.sum_eq_zero fun i _ => Finset.sum_eq_zero fun j _ => ?_
      rw [x0, f_first]
      by_cases h : i = 0 <;> simp [h, (hx α).1]
    · unfold u
      refine Finset.sum_eq_zero fun i _ => Finset.sum_eq_zero fun j _ => ?_
      rw [x1, f_last]
      by_cases h : i = 2 <;> simp [h, (hx α).2]
  · refine ⟨unit (s0 + 3 * (0 * P.m + 1) + 2), ⟨0, ?_⟩, fun y => ?_⟩
    · beta_reduce
      rw [u_dx bardellShape_C2, one h2 (by omega) (by omega), x0, y0]
      simp [Shape.D, fp_first, f_first, hxw.1, (hy 2).1, ha]
    · rw [u_dx bardellShape_C2, one h2 (by omega) (by omega), x1]
      simp [Shape.D, fp_last]
  · refine ⟨unit (s0 + 3 * (0 * P.m + 3) + 2), ⟨0, ?_⟩, fun y => ?_⟩
    · beta_reduce
      rw [u_dx bardellShape_C2, one h2 (by omega) (by omega), x1, y0]
      simp [Shape.D, fp_last, f_first, hxw.2, (hy 2).1, ha]
    · rw [u_dx bardellShape_C2, one h2 (by omega) (by omega), x0]
      simp [Shape.D, fp_first]
  · refine ⟨unit (s0 + 3 * (0 * P.m + 4) + α), ⟨P.a / 2, ?_⟩, fun x => ?_⟩
    · beta_reduce
      rw [u_disp, one hα (by omega) (by omega), xm, y0]
      simp [Shape.D, f_first, (hy α).1, f4]
    · rw [u_disp, one hα (by omega) (by omega), y1]
      simp [Shape.D, f_last]
  · refine ⟨unit (s0 + 3 * (2 * P.m + 4) + α), ⟨P.a / 2, ?_⟩, fun x => ?_⟩
    · beta_reduce
      rw [u_disp, one hα (by omega) (by omega), xm, y1]
      simp [Shape.D, f_last, (hy α).2, f4]
    · rw [u_disp, one hα (by omega) (by omega), y0]
      simp [Shape.D, f_first]
  · refine ⟨unit (s0 + 3 * (1 * P.m + 4) + 2), ⟨P.a / 2, ?_⟩, fun x => ?_⟩
    · beta_reduce
      rw [u_dy bardellShape_C2, one h2 (by omega) (by omega), xm, y0]
      simp [Shape.D, fp_first, hyw.1, f4, hb]
    · rw [u_dy bardellShape_C2, one h2 (by omega) (by omega), y1]
      simp [Shape.D, fp_last]
  · refine ⟨unit (s0 + 3 * (3 * P.m + 4) + 2), ⟨P.a / 2, ?_⟩, fun x => ?_⟩
    · beta_reduce
      rw [u_dy bardellShape_C2, one h2 (by omega) (by omega), xm, y1]
      simp [Shape.D, fp_last, hyw.2, f4, hb]
    · rw [u_dy bardellShape_C2, one h2 (by omega) (by omega), y0]
      simp [Shape.D, fp_first]

/-- Without slopes across an edge there are none. -/
theorem rigid_of (hb : P.b ≠ 0) {α : ℕ} (h1 : (P.yf α).r1 = 0) (h2 : (P.yf α).r2 = 0) (c : ℕ → ℝ) (x : ℝ) :
    dy (u (bardellShape ℝ) P s0 c α) x 0 = 0 ∧ dy (u (bardellShape ℝ) P s0 c α) x P.b = 0 := by
  have y0 : 2 / P.b * 0 - 1 = -1 := by ring
  have y1 : 2 / P.b * P.b - 1 = 1 := by field_simp; ring
  rw [u_dy bardellShape_C2, u_dy bardellShape_C2, y0, y1]
  constructor
  · refine mul_eq_zero_of_right _ (Finset.sum_eq_zero fun i _ => Finset.sum_eq_zero fun j _ => ?_)
    by_cases h : j = 1 <;> simp [Shape.D, fp_first, h, h1]
  · refine mul_eq_zero_of_right _ (Finset.sum_eq_zero fun i _ => Finset.sum_eq_zero fun j _ => ?_)
    by_cases h : j = 3 <;> simp [Shape.D, fp_last, h, h2]

end

/-- **C94, the supports of a flange.**  Whatever the supports of the bay. -/
theorem flange_edges (E : BayEnv ℝ) (B B' : Bay ℝ) (ys w : ℝ) (rho bb : Option ℝ) (b f : LamArgs ℝ) (mf nf : ℕ)
    (h : B.addBlade2 E ys rho bb (some w) b f mf nf = .ok B') (ha : B.skin.a ≠ 0) (hw : w ≠ 0)
    (hm : 5 ≤ mf) (hn : 4 ≤ nf) :
    ∃ s, B'.blade2 = B.blade2 ++ [s] ∧ ∀ sh, s.flange = some sh → Edges (bardellShape ℝ) sh.pan := by
  obtain ⟨s, hs, -, -, -, -, hf⟩ := parts2 E B B' ys rho bb (some w) b f mf nf h
  refine ⟨s, hs, fun sh hsh => ?_⟩
  obtain ⟨-, -, -, -, em, en, ea, eb, w', rr, st, ts, ps, hp⟩ := hf sh hsh
  refine edges_of (by rw [ea]; exact ha) (by rw [← Option.some.inj eb]; exact hw) (by omega) (by omega)
    (fun α => ?_) (fun α => ?_) ?_ ?_
  · rw [hp]
    match α with
    | 0 => exact ⟨rfl, rfl⟩
    | 1 => exact ⟨rfl, rfl⟩
    | α + 2 => exact ⟨rfl, rfl⟩
  · rw [hp]
    match α with
    | 0 => exact ⟨rfl, rfl⟩
    | 1 => exact ⟨rfl, rfl⟩
    | α + 2 => exact ⟨rfl, rfl⟩
  · rw [hp]; exact ⟨rfl, rfl⟩
  · rw [hp]; exact ⟨rfl, rfl⟩

/-- **C94, the strain along the free edges of a flange.**  The membrane displacements have no slope across
the edge at the skin and the edge opposite to it: the strain across the free edge is zero. -/
theorem flange_rigid (E : BayEnv ℝ) (B B' : Bay ℝ) (ys w : ℝ) (rho bb : Option ℝ) (b f : LamArgs ℝ) (mf nf : ℕ)
    (h : B.addBlade2 E ys rho bb (some w) b f mf nf = .ok B') (hw : w ≠ 0) :
    ∃ s, B'.blade2 = B.blade2 ++ [s] ∧ ∀ sh, s.flange = some sh → ∀ s0 c x, ∀ α < 2,
      dy (u (bardellShape ℝ) sh.pan s0 c α) x 0 = 0 ∧ dy (u (bardellShape ℝ) sh.pan s0 c α) x sh.pan.b = 0 := by
  obtain ⟨s, hs, -, -, -, -, hf⟩ := parts2 E B B' ys rho bb (some w) b f mf nf h
  refine ⟨s, hs, fun sh hsh s0 c x α hα => ?_⟩
  obtain ⟨-, -, -, -, -, -, -, eb, w', rr, st, ts, ps, hp⟩ := hf sh hsh
  have : α = 0 ∨ α = 1 := by omega
  rcases this with rfl | rfl <;>
    exact rigid_of (by rw [← Option.some.inj eb]; exact hw) (by rw [hp]; rfl) (by rw [hp]; rfl) c x

/-- **C94, the base shares the displacements of the skin**: the same amplitudes give both. -/
theorem base_moves (E : BayEnv ℝ) (B B' : Bay ℝ) (ys : ℝ) (rho bb bf : Option ℝ) (b f : LamArgs ℝ) (mf nf : ℕ) :
    (B.addBlade1 E ys rho bb bf b f = .ok B' → ∃ s, B'.blade1 = B.blade1 ++ [s] ∧ ∀ sh, s.base = some sh →
      (∃ w, bb = some w ∧ Strip sh.pan ys w) ∧
        ∀ S s0 c α x y, u S sh.pan s0 c α x y = u S B.skin s0 c α x y) ∧
    (B.addBlade2 E ys rho bb bf b f mf nf = .ok B' → ∃ s, B'.blade2 = B.blade2 ++ [s] ∧
      ∀ sh, s.base = some sh → (∃ w, bb = some w ∧ Strip sh.pan ys w) ∧
        ∀ S s0 c α x y, u S sh.pan s0 c α x y = u S B.skin s0 c α x y) := by
  have key : ∀ w S s0 c α x y, u S { B.skin with x1 := -1, x2 := 1, y1 := ys - w / 2, y2 := ys + w / 2 } s0 c α x y
      = u S B.skin s0 c α x y := fun w S s0 c α x y => by
    match α with
    | 0 => rfl
    | 1 => rfl
    | α + 2 => rfl
  constructor
  · intro h
    obtain ⟨s, hs, -, -, -, -, -, hb⟩ := base1 E B B' ys rho bb bf b f h
    refine ⟨s, hs, fun sh hsh => ?_⟩
    obtain ⟨-, -, w, hw, hp⟩ := hb sh hsh
    rw [hp]
    exact ⟨⟨w, hw, strip B.skin ys w two_ne_zero⟩, key w⟩
  · intro h
    obtain ⟨s, hs, -, -, -, hb, -⟩ := parts2 E B B' ys rho bb bf b f mf nf h
    refine ⟨s, hs, fun sh hsh => ?_⟩
    obtain ⟨-, -, w, hw, hp⟩ := hb sh hsh
    rw [hp]
    exact ⟨⟨w, hw, strip B.skin ys w two_ne_zero⟩, key w⟩

/-! ## Concrete cases -/

/-- A stack of which the properties are missing. -/
def half : LamArgs ℝ := { stack := some [0, 45], plyt := some 1 }

example : Unspecified half ∧ C81.bare.addBlade1 C81.env (1 / 2) none none (some 1) {} half
    = .error (.raised .valueError) := by
  have h : Unspecified half := ⟨by simp [half], .inr ⟨rfl, rfl⟩⟩
  exact ⟨h, (refused C81.env C81.bare (1 / 2) none none (some 1) 1 1 (.inr (.inr h))).1⟩

/-- One thickness and one set of properties, for two plies. -/
example : Layers ({ stack := some [0, 45], plyt := some (1 / 4), laminaprop := some [1] } : LamArgs ℚ) [0, 45]
    [1 / 4, 1 / 4] [[1], [1]] :=
  ⟨rfl, .inr ⟨rfl, _, rfl, rfl⟩, .inr ⟨rfl, _, rfl, rfl⟩⟩

/-- The stiffeners of C81. -/
example : ∃ (B1 B2 B3 : Bay ℝ) (s1 : Blade1 ℝ) (s3 : Blade2 ℝ),
    C81.bare.addBlade1 C81.env (1 / 2) none (some (1 / 2)) (some (1 / 3)) C81.ply C81.ply
      = .ok B1 ∧
    B2.addBlade2 C81.env (1 / 2) none (some (1 / 2)) (some (1 / 3)) C81.ply C81.ply 5 4 = .ok B3 ∧
    B1.blade1 = C81.bare.blade1 ++ [s1] ∧ s1.base ≠ none ∧ s1.sec ≠ none ∧
    B3.blade2 = B2.blade2 ++ [s3] ∧ s3.base ≠ none ∧ s3.flange ≠ none ∧
    ∀ sh, s3.flange = some sh → Edges (bardellShape ℝ) sh.pan := by
  obtain ⟨B, hB, -⟩ := C81.full_built
  have hS := C81.full_shaped hB
  unfold C81.full at hB
  obtain ⟨B1, h1, hB⟩ := bind_ok.1 hB
  obtain ⟨B2, h2, h3⟩ := bind_ok.1 hB
  obtain ⟨s1, k1, -, -, k2, k3, -⟩ := base1 _ _ _ _ _ _ _ _ _ h1
  obtain ⟨s3, l1, -, l2, l3, -⟩ := parts2 _ _ _ _ _ _ _ _ _ _ _ h3
  have ha : B2.skin.a ≠ 0 := by
    have e1 : B1.skin = C81.bare.skin := by
      unfold Bay.addBlade1 at h1
      split at h1
      · cases h1
      obtain ⟨_, -, h1⟩ := bind_ok.1 h1
      obtain ⟨_, -, h1⟩ := bind_ok.1 h1
      obtain ⟨_, -, h1⟩ := bind_ok.1 h1
      obtain ⟨_, -, h1⟩ := bind_ok.1 h1
      cases h1
      rfl
    have e2 : B2.skin = B1.skin := by
      unfold Bay.addBlade2 at h2
      split at h2
      · cases h2
      obtain ⟨_, -, h2⟩ := bind_ok.1 h2
      obtain ⟨_, -, h2⟩ := bind_ok.1 h2
      obtain ⟨_, -, h2⟩ := bind_ok.1 h2
      obtain ⟨_, -, h2⟩ := bind_ok.1 h2
      obtain ⟨_, -, h2⟩ := bind_ok.1 h2
      obtain ⟨_, -, h2⟩ := bind_ok.1 h2
      cases h2
      rfl
    rw [e2, e1]
    show (3 : ℝ) ≠ 0
    norm_num
  obtain ⟨s', l1', l4⟩ := flange_edges _ _ _ _ _ _ _ _ _ _ _ h3 ha (by norm_num) le_rfl le_rfl
  have : s' = s3 := by
    rw [l1] at l1'
    simpa using l1'.symm
  subst this
  refine ⟨B1, B2, B, s1, s', h1, h3, k1, ?_, ?_, l1, ?_, ?_, l4⟩
  · rw [ne_eq, k2]; exact Option.some_ne_none _
  · rw [ne_eq, k3]; exact Option.some_ne_none _
  · rw [ne_eq, l2]; exact Option.some_ne_none _
  · rw [ne_eq, l3]; exact Option.some_ne_none _

/-- The beam of C52 and its bay, after `rebuild`. -/
def beam (base : LamArgs ℚ) : Except Fail (Bay ℚ × Blade1 ℚ) := do
  let B ← C52.stiffened base C52.ply
  match B.blade1 with
  | s :: _ => do
    let R ← B.rebuild C52.env
    return (R, s)
  | [] => .error .undef

/-- In a block of its own, after eleven other amplitudes, and in the first one. -/
example : ∃ B s, beam C52.ply = .ok (B, s) ∧ Fits B s ∧ 11 + 3 * B.skin.m * B.skin.n ≤ 20 ∧
    (∃ x, s.calcKC C52.env B 20 11 11 = .ok x) ∧ (∃ x, s.calcKC C52.env B 20 0 0 = .ok x) ∧
    (∃ x, s.calcKG C52.env B 20 11 11 none = .ok x) ∧ (∃ x, s.calcKG C52.env B 20 0 0 none = .ok x) := by
  obtain ⟨⟨B, s⟩, hB⟩ := exists_ok (x := beam C52.ply) (by decide +kernel)
  have h : ∀ f : Bay ℚ → Blade1 ℚ → Bool, ((beam C52.ply).map fun x => f x.1 x.2).toOption = some true → f B s = true := by
    intro f e
    rw [hB] at e
    simpa [Except.toOption, Except.map] using e
  refine ⟨B, s, hB, ?_, ?_, ?_, ?_, ?_, ?_⟩
  · have := h (fun B s => (s.base.map fun b => decide (b.pan.m = B.skin.m ∧ b.pan.n = B.skin.n)).getD true)
      (by decide +kernel)
    intro b hb
    rw [hb] at this
    simpa using this
  · simpa using h (fun B _ => decide (11 + 3 * B.skin.m * B.skin.n ≤ 20)) (by decide +kernel)
  · exact exists_ok (h (fun B s => (s.calcKC C52.env B 20 11 11).isOk) (by decide +kernel))
  · exact exists_ok (h (fun B s => (s.calcKC C52.env B 20 0 0).isOk) (by decide +kernel))
  · exact exists_ok (h (fun B s => (s.calcKG C52.env B 20 11 11 none).isOk) (by decide +kernel))
  · exact exists_ok (h (fun B s => (s.calcKG C52.env B 20 0 0 none).isOk) (by decide +kernel))

/-- The mass, without a base (with one it does not exist, C57). -/
example : ∃ B s, beam {} = .ok (B, s) ∧ Fits B s ∧ 11 + 3 * B.skin.m * B.skin.n ≤ 20 ∧
    (∃ x, s.calcKM C52.env B 20 11 11 = .ok x) ∧ ∃ x, s.calcKM C52.env B 20 0 0 = .ok x := by
  obtain ⟨⟨B, s⟩, hB⟩ := exists_ok (x := beam {}) (by decide +kernel)
  have h : ∀ f : Bay ℚ → Blade1 ℚ → Bool, ((beam {}).map fun x => f x.1 x.2).toOption = some true → f B s = true := by
    intro f e
    rw [hB] at e
    simpa [Except.toOption, Except.map] using e
  refine ⟨B, s, hB, ?_, ?_, ?_, ?_⟩
  · have := h (fun _ s => s.base.isNone) (by decide +kernel)
    intro b hb
    rw [hb] at this
    cases this
  · simpa using h (fun B _ => decide (11 + 3 * B.skin.m * B.skin.n ≤ 20)) (by decide +kernel)
  · exact exists_ok (h (fun B s => (s.calcKM C52.env B 20 11 11).isOk) (by decide +kernel))
  · exact exists_ok (h (fun B s => (s.calcKM C52.env B 20 0 0).isOk) (by decide +kernel))

end Verif.C94

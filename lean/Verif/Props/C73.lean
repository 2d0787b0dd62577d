import Verif.Model.BayPlot
import Verif.Props.C62
import Verif.Props.C72

/-!
# C73: the contour plots of a bay

On a grid, `plot_skin` and `plot_stiffener` show the requested displacement of the skin or of the
flange at the grid points, displaced as asked, and keep stored fields.  Violated: a deformed plot
changes the stored mesh, given points are not where the field is drawn, the documented strains and
stresses cannot be drawn, nor can any stiffener but the first.
-/

namespace Verif.C73

open Model Spec

variable {S : Shape ℝ} {B : OutBay ℝ} {len : ℕ} {c : ℕ → ℝ} {cores : ℕ} {xs ys : Option (Arr ℝ)}
  {gridx gridy : ℕ} {o o' : Out ℝ}

/-- The displacement called `n` of a panel whose constants start at `s0`. -/
noncomputable def value (S : Shape ℝ) (P : Panel ℝ) (s0 : ℕ) (c : ℕ → ℝ) (n : String) (x y : ℝ) : ℝ :=
  match n with
  | "u" => u S P s0 c 0 x y
  | "v" => u S P s0 c 1 x y
  | "w" => u S P s0 c 2 x y
  | "phix" => - dx (u S P s0 c 2) x y
  | "phiy" => - dy (u S P s0 c 2) x y
  | _ => 0

theorem get_value (hS : S.C2) {P : Panel ℝ} {s0 : ℕ} {x y : ℝ} {v : UVW ℝ}
    (h : C62.IsField S P s0 c x y v) {n : String} {i : ℕ} (hi : displs.idxOf? n = some i) :
    v.get i = value S P s0 c n x y := by
  obtain ⟨h1, h2, h3, h4, h5⟩ := h
  simp only [mul_div_right_comm] at h1 h2 h3 h4 h5
  simp only [displs, List.idxOf?, List.findIdx?_cons, beq_iff_eq, List.findIdx?_nil] at hi
  split_ifs at hi with e1 e2 e3 e4 e5
  · subst e1; cases hi
    exact h1.trans (u_disp S P s0 c 0 x y).symm
  · subst e2; cases hi
    exact h2.trans (u_disp S P s0 c 1 x y).symm
  · subst e3; cases hi
    exact h3.trans (u_disp S P s0 c 2 x y).symm
  · subst e4; cases hi
    exact h4.trans (congrArg Neg.neg (u_dx hS P s0 c 2 x y).symm)
  · subst e5; cases hi
    exact h5.trans (congrArg Neg.neg (u_dy hS P s0 c 2 x y).symm)
  · cases hi

/-! ## The fields and the mesh left by the calculations -/

/-- The mesh a calculation at the points `lx`, `ly` leaves: these points, unless they were given. -/
def meshOf (xs ys : Option (Arr ℝ)) (old : Option (Arr ℝ × Arr ℝ)) (lx ly : List ℝ) (sh : List ℕ) :
    Option (Arr ℝ × Arr ℝ) :=
  if xs = none ∨ ys = none then some (⟨sh, lx⟩, ⟨sh, ly⟩) else old

/-- What `uvw_skin` and `uvw_stiffener` leave. -/
structure After (S : Shape ℝ) (P : Panel ℝ) (s0 : ℕ) (c : ℕ → ℝ) (a b : ℝ) (xs ys : Option (Arr ℝ))
    (gridx gridy : ℕ) (o o' : Out ℝ) : Prop where
  fields : ∃ lx ly sh, C62.Points a b xs ys gridx gridy lx ly sh ∧ lx.length = ly.length ∧
    o'.mesh = meshOf xs ys o.mesh lx ly sh ∧
    ∀ n ∈ displs, ∃ f, o'.fields n = some f ∧ C72.HoldsAt (value S P s0 c n) lx ly sh f
  others : ∀ n, n ∉ displs → o'.fields n = o.fields n

theorem mesh_eq {a b : ℝ} {lx ly : List ℝ} {sh : List ℕ}
    (h : C62.Points a b xs ys gridx gridy lx ly sh) :
    bayMesh a b xs ys gridx gridy o = meshOf xs ys o.mesh lx ly sh := by
  have hg : C62.Points a b none none gridx gridy
      (meshX (linspace 0 a gridx) (linspace 0 b gridy))
      (meshY (linspace 0 a gridx) (linspace 0 b gridy)) [gridy, gridx] :=
    .inr ⟨.inl rfl, rfl, C70.covers a b gridx gridy⟩
  have key : xs = none ∨ ys = none → lx = meshX (linspace 0 a gridx) (linspace 0 b gridy) ∧
      ly = meshY (linspace 0 a gridx) (linspace 0 b gridy) ∧ sh = [gridy, gridx] := by
    intro hn
    refine C72.points_unique (xs := none) (ys := none) ?_ hg
    rcases h with ⟨X, Y, e1, e2, -⟩ | ⟨-, h⟩
    · rw [e1, e2] at hn; rcases hn with hn | hn <;> cases hn
    · exact .inr ⟨.inl rfl, h⟩
  unfold meshOf bayMesh
  match xs, ys with
  | some X, some Y => simp
  | none, ys =>
    obtain ⟨rfl, rfl, rfl⟩ := key (.inl rfl)
    simp
  | some X, none =>
    obtain ⟨rfl, rfl, rfl⟩ := key (.inr rfl)
    simp

theorem after {P : Panel ℝ} {s0 : ℕ} {a b : ℝ} {lx ly : List ℝ} {sh : List ℕ} {out : List (UVW ℝ)}
    (hS : S.C2) (hp : C62.Points a b xs ys gridx gridy lx ly sh) (h1 : out.length = lx.length)
    (hl : lx.length = ly.length)
    (h : ∀ (k : ℕ) (x y : ℝ), lx[k]? = some x → ly[k]? = some y →
      ∃ o, out[k]? = some o ∧ C62.IsField S P s0 c x y o) :
    After S P s0 c a b xs ys gridx gridy o
      (o.putDispl (bayMesh a b xs ys gridx gridy o) (sh, out)) := by
  refine ⟨⟨lx, ly, sh, hp, hl, mesh_eq hp, fun n hn => ?_⟩, fun n hn => ?_⟩
  · obtain ⟨i, hi⟩ : ∃ i, displs.idxOf? n = some i := by
      cases h : displs.idxOf? n with
      | some i => exact ⟨i, rfl⟩
      | none => exact absurd hn (List.idxOf?_eq_none_iff.1 h)
    refine ⟨⟨sh, out.map (UVW.get · i)⟩, by simp only [Out.putDispl, hi], rfl, by simpa using h1, ?_⟩
    intro k px py hx hy
    obtain ⟨v, hv, hf⟩ := h k px py hx hy
    change (out.map (UVW.get · i))[k]? = _
    rw [List.getElem?_map, hv, Option.map_some, get_value hS hf hi]
  · simp only [Out.putDispl, List.idxOf?_eq_none_iff.2 hn]

/-- `uvw_skin`. -/
theorem skin (hS : S.C2) (hc : 0 < cores) (hx : C62.Sound xs) (hy : C62.Sound ys)
    (h : B.skinOut S len c xs ys gridx gridy cores o = .ok o') :
    B.getSize = .ok len ∧ After S B.skin 0 c B.skin.a B.skin.b xs ys gridx gridy o o' := by
  obtain ⟨⟨sh, out⟩, hr, h⟩ := bind_ok.1 h
  cases h
  obtain ⟨hn, lx, ly, hp, h1, hl, hf⟩ := C62.skin hc hx hy hr
  exact ⟨hn, after hS hp h1 hl hf⟩

/-- `uvw_stiffener`, which has a result for the first stiffener only (`C62.later_fails`). -/
theorem flange (hS : S.C2) (hL : C62.Listed B) (hc : 0 < cores) (hx : C62.Sound xs)
    (hy : C62.Sound ys) {si : ℕ} {region : String}
    (h : B.stiffenerOut S len c si region xs ys gridx gridy cores o = .ok o') :
    B.getSize = .ok len ∧ ∃ i s f, B.stiffeners[si]? = some (.two i) ∧ B.blade2[i]? = some s ∧
      s.flange = some f ∧ After S f.panel (C52.start B.toBay i) c B.skin.a f.pan.b xs ys gridx gridy o o' := by
  obtain ⟨⟨sh, out⟩, hr, h⟩ := bind_ok.1 h
  cases h
  obtain ⟨hn, i, s, f, lx, ly, hi, hs, hf, hp, h1, hl, hv⟩ := C62.flange_partial hL hc hx hy hr
  have e : B.flangeWidth si = f.pan.b := by simp [OutBay.flangeWidth, hi, hs, hf]
  rw [e]
  exact ⟨hn, i, s, f, hi, hs, hf, after hS hp h1 hl hv⟩

/-! ## The plots -/

variable {A : BayPlotArgs ℝ} {C : Contour ℝ} {compute : Out ℝ → Except Fail (Out ℝ)}

theorem plot_ok (h : plotBay compute A o = .ok (C, o')) : A.vec ∈ displs ∧ ∃ o1 mesh lo hi,
    compute o = .ok o1 ∧ o1.mesh = some mesh ∧ C.val = (o1.fields A.vec).getD ⟨[], []⟩ ∧
    A.vecmin.elim (minOf C.val.data) .ok = .ok lo ∧ A.vecmax.elim (maxOf C.val.data) .ok = .ok hi ∧
    C.levels = linspace lo hi A.numLevels ∧ bayDeform A o1 mesh = .ok (C.y, C.x) ∧
    o'.mesh = some (C.y, C.x) ∧
    o'.fields = fun k => (o.fields k).orElse fun _ => o1.fields k := by
  unfold plotBay at h
  split at h
  swap
  · cases h
  rename_i hv
  obtain ⟨o1, h1, h⟩ := bind_ok.1 h
  obtain ⟨lo, hlo, h⟩ := bind_ok.1 h
  obtain ⟨hi, hhi, h⟩ := bind_ok.1 h
  split at h
  · cases h
  rename_i mesh hm
  obtain ⟨m, hd, h⟩ := bind_ok.1 h
  cases h
  exact ⟨hv, o1, mesh, lo, hi, h1, hm, rfl, hlo, hhi, rfl, hd, rfl, rfl⟩

theorem addInto_holds {g v : ℝ → ℝ → ℝ} {lx ly : List ℝ} {sh : List ℕ} {X V R : Arr ℝ} {k : ℝ}
    (hX : C72.HoldsAt g lx ly sh X) (hV : C72.HoldsAt v lx ly sh V) (h : X.addInto k V = .ok R) :
    C72.HoldsAt (fun x y => g x y + k * v x y) lx ly sh R := by
  unfold Arr.addInto at h
  split at h
  · cases h
    exact C72.addMul_holds k hX hV
  · cases h

/-- The plot shows the field `n` of the panel `P` at the points of a grid: horizontally `y + sf v`,
vertically `x - sf u`. -/
def Shown (S : Shape ℝ) (P : Panel ℝ) (s0 : ℕ) (c : ℕ → ℝ) (a b : ℝ) (A : BayPlotArgs ℝ)
    (C : Contour ℝ) : Prop :=
  ∃ lx ly sh, C62.Points a b A.xs A.ys A.gridx A.gridy lx ly sh ∧ lx.length = ly.length ∧
    C72.HoldsAt (value S P s0 c A.vec) lx ly sh C.val ∧
    C72.HoldsAt (fun x y => y + (if A.deform then A.sf * u S P s0 c 1 x y else 0)) lx ly sh C.x ∧
    C72.HoldsAt (fun x y => x - (if A.deform then A.sf * u S P s0 c 0 x y else 0)) lx ly sh C.y

theorem shown {P : Panel ℝ} {s0 : ℕ} {a b : ℝ} (hg : A.xs = none ∨ A.ys = none)
    (hA : ∀ {o1}, compute o = .ok o1 → After S P s0 c a b A.xs A.ys A.gridx A.gridy o o1)
    (h : plotBay compute A o = .ok (C, o')) : Shown S P s0 c a b A C := by
  obtain ⟨hv, o1, mesh, lo, hi, h1, hm, hval, -, -, -, hd, -, -⟩ := plot_ok h
  obtain ⟨⟨lx, ly, sh, hp, hl, hm', hf⟩, -⟩ := hA h1
  rw [hm, meshOf, if_pos hg] at hm'
  cases hm'
  obtain ⟨f, hf1, hh⟩ := hf _ hv
  obtain ⟨fu, hfu, hu⟩ := hf "u" (by decide)
  obtain ⟨fv, hfv, hvv⟩ := hf "v" (by decide)
  have bx : C72.HoldsAt (fun _ y => y) lx ly sh ⟨sh, ly⟩ := ⟨rfl, hl.symm, fun _ _ _ _ h => h⟩
  have by' : C72.HoldsAt (fun x _ => x) lx ly sh ⟨sh, lx⟩ := ⟨rfl, rfl, fun _ _ _ h _ => h⟩
  refine ⟨lx, ly, sh, hp, hl, by rw [hval, hf1]; exact hh, ?_⟩
  unfold bayDeform at hd
  split at hd
  · rename_i hdef
    rw [hfu, hfv] at hd
    obtain ⟨y, h1, hd⟩ := bind_ok.1 hd
    obtain ⟨x, h2, hd⟩ := bind_ok.1 hd
    have e1 : x = C.x := congrArg Prod.snd (Except.ok.inj hd)
    have e2 : y = C.y := congrArg Prod.fst (Except.ok.inj hd)
    simp only [hdef, if_true]
    refine ⟨e1 ▸ addInto_holds bx hvv h2, ?_⟩
    have := addInto_holds by' hu h1
    simp only [neg_mul, ← sub_eq_add_neg] at this
    exact e2 ▸ this
  · rename_i hdef
    have e1 : (⟨sh, ly⟩ : Arr ℝ) = C.x := congrArg Prod.snd (Except.ok.inj hd)
    have e2 : (⟨sh, lx⟩ : Arr ℝ) = C.y := congrArg Prod.fst (Except.ok.inj hd)
    rw [← e1, ← e2]
    simp only [hdef, if_false, add_zero, sub_zero, Bool.false_eq_true]
    exact ⟨bx, by'⟩

/-- `plot_skin` on a grid.  Full claim: also at given points (see `given_violated`) and for strains and
stresses (see `undisplayed`). -/
theorem skin_partial (hS : S.C2) (hc : 0 < cores) (hx : C62.Sound A.xs) (hy : C62.Sound A.ys)
    (hg : A.xs = none ∨ A.ys = none) (h : B.plotSkin S len c A cores o = .ok (C, o')) :
    B.getSize = .ok len ∧ Shown S B.skin 0 c B.skin.a B.skin.b A C := by
  obtain ⟨-, o1, mesh, lo, hi, h1, -⟩ := plot_ok h
  exact ⟨(skin hS hc hx hy h1).1, shown hg (fun h => (skin hS hc hx hy h).2) h⟩

/-- `plot_stiffener` on a grid over the flange, which is that of the first stiffener: the flange's own
constants count.  Full claim: also the later ones (see `later_violated`), and as for the skin. -/
theorem stiffener_partial (hS : S.C2) (hL : C62.Listed B) (hc : 0 < cores) (hx : C62.Sound A.xs)
    (hy : C62.Sound A.ys) (hg : A.xs = none ∨ A.ys = none) {si : ℕ} {region : String}
    (h : B.plotStiffener S len c si region A cores o = .ok (C, o')) :
    B.getSize = .ok len ∧ ∃ i s f, B.stiffeners[si]? = some (.two i) ∧ B.blade2[i]? = some s ∧
      s.flange = some f ∧ Shown S f.panel (C52.start B.toBay i) c B.skin.a f.pan.b A C := by
  obtain ⟨-, o1, mesh, lo, hi, h1, -⟩ := plot_ok h
  obtain ⟨hn, i, s, f, hi, hs, hf, -⟩ := flange hS hL hc hx hy h1
  refine ⟨hn, i, s, f, hi, hs, hf, shown hg (fun h => ?_) h⟩
  obtain ⟨-, i', s', f', hi', hs', hf', hA⟩ := flange hS hL hc hx hy h
  rw [hi] at hi'; cases hi'
  rw [hs] at hs'; cases hs'
  rw [hf] at hf'; cases hf'
  exact hA

/-- The limits of the scale are the given ones or the least and the greatest value drawn, and the levels
divide the interval between them evenly. -/
theorem scale (h : plotBay compute A o = .ok (C, o')) :
    ∃ lo hi, C71.Low A.vecmin C.val.data lo ∧ C71.High A.vecmax C.val.data hi ∧
      C.levels.length = A.numLevels ∧ ∀ i < A.numLevels,
        C.levels[i]? = some (lo + i * ((hi - lo) / (A.numLevels - 1))) := by
  obtain ⟨-, o1, mesh, lo, hi, -, -, -, hlo, hhi, hl, -⟩ := plot_ok h
  rw [hl]
  exact ⟨lo, hi, C71.low hlo, C71.high hhi, by simp [linspace], fun i hi => by simp [linspace, hi]⟩

/-- A plot keeps every displacement that was stored before. -/
theorem kept (h : plotBay compute A o = .ok (C, o')) {n : String} {f : Arr ℝ}
    (hf : o.fields n = some f) : o'.fields n = some f := by
  obtain ⟨-, o1, mesh, lo, hi, -, -, -, -, -, -, -, -, h⟩ := plot_ok h
  rw [h]
  simp only [hf]
  rfl

theorem plot_exists {P : Panel ℝ} {s0 : ℕ} {a b : ℝ} (hv : A.vec ∈ displs)
    (hg : A.xs = none ∨ A.ys = none) (hx : 0 < A.gridx) (hy : 0 < A.gridy) {o1 : Out ℝ}
    (h1 : compute o = .ok o1) (hA : After S P s0 c a b A.xs A.ys A.gridx A.gridy o o1) :
    ∃ C o', plotBay compute A o = .ok (C, o') := by
  obtain ⟨⟨lx, ly, sh, hp, hl, hm, hf⟩, -⟩ := hA
  rw [meshOf, if_pos hg] at hm
  obtain ⟨f, hf1, hh⟩ := hf _ hv
  obtain ⟨fu, hfu, hu⟩ := hf "u" (by decide)
  obtain ⟨fv, hfv, hvv⟩ := hf "v" (by decide)
  have hne : f.data ≠ [] := by
    rcases hp with ⟨X, Y, e1, e2, -⟩ | ⟨-, -, h1, -⟩
    · rw [e1, e2] at hg; rcases hg with e | e <;> cases e
    · intro e
      have h2 := hh.2.1
      rw [e, h1] at h2
      have := Nat.mul_pos hy hx
      simp only [List.length_nil] at h2
      omega
  obtain ⟨p, l, hpl⟩ : ∃ p l, f.data = p :: l := by
    cases hq : f.data with
    | nil => exact absurd hq hne
    | cons p l => exact ⟨p, l, rfl⟩
  obtain ⟨lo, hlo⟩ : ∃ lo, A.vecmin.elim (minOf f.data) .ok = (.ok lo : Except Fail ℝ) := by
    cases A.vecmin with
    | some a => exact ⟨a, rfl⟩
    | none => rw [hpl]; exact ⟨_, rfl⟩
  obtain ⟨hi, hhi⟩ : ∃ hi, A.vecmax.elim (maxOf f.data) .ok = (.ok hi : Except Fail ℝ) := by
    cases A.vecmax with
    | some a => exact ⟨a, rfl⟩
    | none => rw [hpl]; exact ⟨_, rfl⟩
  obtain ⟨m, hd⟩ : ∃ m, bayDeform A o1 (⟨sh, lx⟩, ⟨sh, ly⟩) = .ok m := by
    unfold bayDeform
    split
    · rw [hfu, hfv]
      have eu : (⟨sh, lx⟩ : Arr ℝ).shape = fu.shape := hu.1.symm
      have ev : (⟨sh, ly⟩ : Arr ℝ).shape = fv.shape := hvv.1.symm
      exact ⟨_, bind_ok.2 ⟨_, by rw [Arr.addInto, if_pos eu],
        bind_ok.2 ⟨_, by rw [Arr.addInto, if_pos ev], rfl⟩⟩⟩
    · exact ⟨_, rfl⟩
  refine ⟨⟨m.2, m.1, f, linspace lo hi A.numLevels⟩,
    ⟨some m, fun k => (o.fields k).orElse fun _ => o1.fields k⟩, ?_⟩
  unfold plotBay
  rw [if_pos hv]
  refine bind_ok.2 ⟨o1, h1, ?_⟩
  rw [hf1, hm]
  exact bind_ok.2 ⟨lo, hlo, bind_ok.2 ⟨hi, hhi, bind_ok.2 ⟨m, hd, rfl⟩⟩⟩

/-- Every displacement of the skin can be drawn on a grid. -/
theorem skin_exists (S : Shape ℝ) (B : OutBay ℝ) (len : ℕ) (c : ℕ → ℝ) (A : BayPlotArgs ℝ) (cores : ℕ)
    (o : Out ℝ) (hS : S.C2) (hc : 0 < cores) (hn : B.getSize = .ok len) (hv : A.vec ∈ displs)
    (hg : A.xs = none ∨ A.ys = none) (hx : 0 < A.gridx) (hy : 0 < A.gridy) (hsx : C62.Sound A.xs)
    (hsy : C62.Sound A.ys) : ∃ C o', B.plotSkin S len c A cores o = .ok (C, o') := by
  obtain ⟨r, hr⟩ := C62.skin_exists (S := S) (c := c) (gridx := A.gridx) (gridy := A.gridy)
    (cores := cores) hn (.inl hg)
  have h1 : B.skinOut S len c A.xs A.ys A.gridx A.gridy cores o
      = .ok (o.putDispl (bayMesh B.skin.a B.skin.b A.xs A.ys A.gridx A.gridy o) r) :=
    bind_ok.2 ⟨r, hr, rfl⟩
  exact plot_exists hv hg hx hy h1 (skin hS hc hsx hsy h1).2

/-- And so can those of the flange of the first stiffener. -/
theorem stiffener_exists (S : Shape ℝ) (B : OutBay ℝ) (len : ℕ) (c : ℕ → ℝ) (A : BayPlotArgs ℝ)
    (cores : ℕ) (o : Out ℝ) (hS : S.C2) (hL : C62.Listed B) (hc : 0 < cores) (hn : B.getSize = .ok len)
    (hv : A.vec ∈ displs) (hg : A.xs = none ∨ A.ys = none) (hx : 0 < A.gridx) (hy : 0 < A.gridy)
    (hsx : C62.Sound A.xs) (hsy : C62.Sound A.ys) {region : String} (hr : lower region = "flange") {i : ℕ}
    {s : Blade2 ℝ} {f : Shell ℝ} (hi : B.stiffeners[0]? = some (.two i)) (hs : B.blade2[i]? = some s)
    (hf : s.flange = some f) (hm : ∃ n, f.getSize = .ok n) :
    ∃ C o', B.plotStiffener S len c 0 region A cores o = .ok (C, o') := by
  obtain ⟨d, hd, -⟩ := bind_ok.1 hn
  obtain ⟨n, hm⟩ := hm
  obtain ⟨p, hp⟩ : ∃ p, bayPoints B.skin.a f.pan.b A.xs A.ys A.gridx A.gridy = .ok p := by
    unfold bayPoints
    match A.xs, A.ys, hg with
    | none, _, _ => exact ⟨_, rfl⟩
    | some _, none, _ => exact ⟨_, rfl⟩
    | some _, some _, hp => rcases hp with h | h <;> cases h
  have hfl : flangeAt B.toBay i = .ok f := by rw [flangeAt, hs]; simp only [hf]
  have hu : B.uvwStiffener S len c 0 region A.xs A.ys A.gridx A.gridy cores
      = .ok (p.2.2, fuvw S f.panel (fun k => c (d + k)) p.1 p.2.1 cores) := by
    unfold OutBay.uvwStiffener
    rw [hi]
    simp only
    rw [if_neg (by rw [hr]; decide)]
    refine bind_ok.2 ⟨d, hd, bind_ok.2 ⟨d, C62.rowInit_zero _ _, ?_⟩⟩
    rw [if_neg (not_not.2 hr)]
    refine bind_ok.2 ⟨f, hfl, bind_ok.2 ⟨n, hm, bind_ok.2 ⟨len, hn, ?_⟩⟩⟩
    rw [if_neg (not_not.2 rfl)]
    exact bind_ok.2 ⟨p, hp, rfl⟩
  have h1 : B.stiffenerOut S len c 0 region A.xs A.ys A.gridx A.gridy cores o
      = .ok (o.putDispl (bayMesh B.skin.a (B.flangeWidth 0) A.xs A.ys A.gridx A.gridy o)
        (p.2.2, fuvw S f.panel (fun k => c (d + k)) p.1 p.2.1 cores)) :=
    bind_ok.2 ⟨_, hu, rfl⟩
  obtain ⟨-, i', s', f', -, -, -, hA⟩ := flange hS hL hc hsx hsy h1
  exact plot_exists hv hg hx hy h1 hA

/-! ## What goes wrong -/

/-- Neither the documented strains and stresses nor any other name can be drawn. -/
theorem undisplayed (compute : Out ℝ → Except Fail (Out ℝ)) (A : BayPlotArgs ℝ) (o : Out ℝ)
    (hv : A.vec ∉ ["u", "v", "w", "phix", "phiy"]) :
    plotBay compute A o = .error (.raised .valueError) := by
  rw [plotBay, if_neg (show A.vec ∉ displs from hv)]

/-- Violated: at given points, the field is drawn at the points of the mesh that was stored before, and
not at all if there was none. -/
theorem given_violated (hS : S.C2) (hc : 0 < cores) {X Y : Arr ℝ} (hX : A.xs = some X) (hY : A.ys = some Y)
    (hx : C62.Sound A.xs) (hy : C62.Sound A.ys) (hd : A.deform = false)
    (h : B.plotSkin S len c A cores o = .ok (C, o')) : o.mesh = some (C.y, C.x) := by
  obtain ⟨-, o1, mesh, lo, hi, h1, hm, -, -, -, -, hdef, -⟩ := plot_ok h
  obtain ⟨-, ⟨lx, ly, sh, -, -, hm', -⟩, -⟩ := skin hS hc hx hy h1
  rw [bayDeform, hd] at hdef
  cases hdef
  rw [hm, meshOf, if_neg (by rw [hX, hY]; simp)] at hm'
  exact hm'.symm

/-- Violated: a later stiffener cannot be drawn. -/
theorem later_violated (S : Shape ℝ) (B : OutBay ℝ) (len : ℕ) (c : ℕ → ℝ) (A : BayPlotArgs ℝ)
    (cores : ℕ) (o : Out ℝ) {si : ℕ} (h0 : 0 < si) (region : String) :
    ¬ ∃ C o', B.plotStiffener S len c si region A cores o = .ok (C, o') := by
  rintro ⟨C, o', h⟩
  obtain ⟨-, o1, mesh, lo, hi, h1, -⟩ := plot_ok h
  obtain ⟨r, hr, -⟩ := bind_ok.1 h1
  exact C62.later_fails h0 r hr

/-- A bay without stiffeners, its mesh after `uvw_skin` and after a deformed plot of the same grid. -/
def meshes : Except Fail (Option (Arr ℚ × Arr ℚ) × Option (Arr ℚ × Arr ℚ)) := do
  let B : OutBay ℚ := ⟨{ C46.bay with
    skin := { Witness.panel with m := 5, n := 5 }
    model := some "plate_clpt_donnell_bardell" }, [], []⟩
  let o ← B.skinOut (bardellShape ℚ) 75 (fun _ => 1) none none 4 4 2 Out.clear
  let (_, o') ← B.plotSkin (bardellShape ℚ) 75 (fun _ => 1)
    { deform := true, gridx := 4, gridy := 4, numLevels := 2 } 2 o
  return (o.mesh, o'.mesh)

/-- Violated: a deformed plot changes the mesh that is stored with the fields. -/
theorem mesh_violated : ∃ m m', meshes = .ok (some m, some m') ∧ m.1.shape = m'.1.shape ∧
    m.1.data ≠ m'.1.data ∧ m.2.data ≠ m'.2.data := by
  have e : (meshes.toOption.map fun q => match q with
      | (some m, some m') => decide (m.1.shape = m'.1.shape) && decide (m.1.data ≠ m'.1.data) &&
          decide (m.2.data ≠ m'.2.data)
      | _ => false) = some true := by decide +kernel
  cases h : meshes with
  | error x => rw [h] at e; cases e
  | ok q =>
    rw [h] at e
    obtain ⟨q1, q2⟩ := q
    cases q1 with
    | none => cases e
    | some m =>
      cases q2 with
      | none => cases e
      | some m' =>
        simp only [Except.toOption, Option.map_some, Option.some.injEq, Bool.and_eq_true,
          decide_eq_true_eq] at e
        exact ⟨m, m', rfl, e.1.1, e.1.2, e.2⟩

/-! ## Concrete cases -/

/-- A bay with one flange. -/
noncomputable def bay : OutBay ℝ where
  skin := Witness.panel
  r := some 5
  model := some "plate_clpt_donnell_bardell"
  stack := [0]
  plyt := some (1 / 2)
  plyts := []
  laminaprop := [1]
  laminaprops := []
  rho := 1
  beta := none
  Mach := none
  V := none
  rhoAir := none
  speedSound := none
  panels := []
  blade1 := []
  blade2 := [⟨0, 0, 1, 1, [], [], [], none, some C72.plate⟩]
  forcesSkin := []
  stiffeners := [.two 0]

theorem bay_size : ∃ n, bay.getSize = .ok n := ⟨_, rfl⟩

theorem sound_none : C62.Sound (none : Option (Arr ℝ)) := fun _ h => nomatch h

example : ∃ len C o', bay.plotSkin (bardellShape ℝ) len (fun k => k)
      { vec := "phiy", deform := true, gridx := 40 } 4 Out.clear = .ok (C, o') ∧
    Shown (bardellShape ℝ) bay.skin 0 (fun k => k) bay.skin.a bay.skin.b
      { vec := "phiy", deform := true, gridx := 40 } C := by
  obtain ⟨len, hn⟩ := bay_size
  obtain ⟨C, o', h⟩ := skin_exists (bardellShape ℝ) bay len (fun k => k)
    { vec := "phiy", deform := true, gridx := 40 } 4 Out.clear bardellShape_C2 (by norm_num) hn
    (by decide) (.inl rfl) (by norm_num) (by norm_num) sound_none sound_none
  exact ⟨len, C, o', h, (skin_partial bardellShape_C2 (by norm_num) sound_none sound_none (.inl rfl) h).2⟩

example : ∃ len C o', bay.plotStiffener (bardellShape ℝ) len (fun k => k) 0 "Flange" { gridy := 7 } 4
    Out.clear = .ok (C, o') := by
  obtain ⟨len, hn⟩ := bay_size
  obtain ⟨C, o', h⟩ := stiffener_exists (bardellShape ℝ) bay len (fun k => k) { gridy := 7 } 4 Out.clear
    bardellShape_C2 (by rfl) (by norm_num) hn (by decide) (.inl rfl) (by norm_num) (by norm_num) sound_none
    sound_none (region := "Flange") (by decide +kernel) rfl rfl rfl ⟨_, rfl⟩
  exact ⟨len, C, o', h⟩

/-- Given points and a mesh of before. -/
example : ∃ len C o', bay.plotSkin (bardellShape ℝ) len (fun k => k)
      { xs := some ⟨[2], [0, 1]⟩, ys := some ⟨[2], [1, 1]⟩, vecmin := some 0, vecmax := some 1 } 4
      ⟨some (⟨[1], [5]⟩, ⟨[1], [6]⟩), fun _ => none⟩ = .ok (C, o') ∧ C.y.data = [5] := by
  obtain ⟨len, hn⟩ := bay_size
  obtain ⟨r, hr⟩ := C62.skin_exists (S := bardellShape ℝ) (c := fun k => (k : ℝ)) (gridx := 300)
    (gridy := 300) (cores := 4) (xs := some ⟨[2], [0, 1]⟩) (ys := some ⟨[2], [1, 1]⟩) hn
    (.inr ⟨_, _, 2, rfl, rfl, rfl, rfl⟩)
  obtain ⟨q, hq⟩ : ∃ q, bay.plotSkin (bardellShape ℝ) len (fun k => k)
      { xs := some ⟨[2], [0, 1]⟩, ys := some ⟨[2], [1, 1]⟩, vecmin := some 0, vecmax := some 1 } 4
      ⟨some (⟨[1], [5]⟩, ⟨[1], [6]⟩), fun _ => none⟩ = .ok q := by
    have hk := fun o : Out ℝ => show bay.skinOut (bardellShape ℝ) len (fun k => (k : ℝ))
        (some ⟨[2], [0, 1]⟩) (some ⟨[2], [1, 1]⟩) 300 300 4 o
        = .ok (o.putDispl (bayMesh bay.skin.a bay.skin.b (some ⟨[2], [0, 1]⟩) (some ⟨[2], [1, 1]⟩)
          300 300 o) r) from bind_ok.2 ⟨r, hr, rfl⟩
    unfold OutBay.plotSkin plotBay
    rw [if_pos (by decide), hk]
    exact ⟨_, rfl⟩
  have sound : ∀ l : List ℝ, l.length = 2 → C62.Sound (some (⟨[2], l⟩ : Arr ℝ)) := by
    intro l hl X h
    cases h
    simpa using hl
  have := given_violated bardellShape_C2 (by norm_num) rfl rfl (sound _ rfl) (sound _ rfl) rfl hq
  refine ⟨len, q.1, q.2, hq, ?_⟩
  exact congrArg Arr.data (Prod.ext_iff.1 (Option.some.inj this)).1.symm

example : ({ vec := "exx" } : BayPlotArgs ℝ).vec ∉ ["u", "v", "w", "phix", "phiy"] := by decide

end Verif.C73

import Verif.Model.ShellPlot
import Verif.Props.C71

/-!
# C72: the contour plot of a panel and its stored fields

The plot shows the requested component at the requested points, displaced as asked; fields stored
before are kept.  Violated: `NLgeom` is ignored by strain plots, four documented components cannot be
drawn, and the stored mesh is not that of the fields kept.
-/

namespace Verif.C72

open Model Spec

variable {S : Shape ℝ} {s : Shell ℝ} {c : ℕ → ℝ} {cores : ℕ}

/-! ## The stored fields -/

/-- `P` with all its constants counted from 0. -/
noncomputable def comp (S : Shape ℝ) (s : Shell ℝ) (c : ℕ → ℝ) (NL : Bool) (vec : String) (x y : ℝ) :
    ℝ := C70.component S s.panel 0 (s.ABD.getD fun _ _ => 0) c NL vec x y

/-- An assembly of this panel only, without a place: `C70` then speaks of the panel alone. -/
def alone (s : Shell ℝ) : Multi ℝ where
  shells := fun _ => s
  place := fun _ => none
  panels := [0]
  conn := none
  kCconn := none

theorem points {P : Panel ℝ} {xs ys : Option (Arr ℝ)} {gridx gridy : ℕ}
    {d : List ℝ × List ℝ × List ℕ} (h : defaultField P xs ys gridx gridy = .ok d) :
    C62.Points P.a P.b xs ys gridx gridy d.1 d.2.1 d.2.2 := by
  have grid : C62.Points P.a P.b none none gridx gridy
      (meshX (linspace 0 P.a gridx) (linspace 0 P.b gridy))
      (meshY (linspace 0 P.a gridx) (linspace 0 P.b gridy)) [gridy, gridx] :=
    .inr ⟨.inl rfl, rfl, C70.covers P.a P.b gridx gridy⟩
  have grid' : ∀ {xs ys : Option (Arr ℝ)}, xs = none ∨ ys = none →
      C62.Points P.a P.b xs ys gridx gridy
      (meshX (linspace 0 P.a gridx) (linspace 0 P.b gridy))
      (meshY (linspace 0 P.a gridx) (linspace 0 P.b gridy)) [gridy, gridx] := fun e =>
    .inr ⟨e, rfl, C70.covers P.a P.b gridx gridy⟩
  unfold defaultField at h
  match xs, ys with
  | some X, some Y =>
    simp only at h
    split at h
    · cases h
    · cases h
      exact .inl ⟨X, Y, rfl, rfl, not_not.1 ‹_›, rfl, rfl, rfl⟩
  | none, ys =>
    simp only [ne_eq, not_true_eq_false, if_false, Except.ok.injEq] at h
    subst h
    exact grid' (.inl rfl)
  | some X, none =>
    simp only [ne_eq, not_true_eq_false, if_false, Except.ok.injEq] at h
    subst h
    exact grid' (.inr rfl)

/-- The array `f` holds the component at the points, in their shape. -/
def HoldsAt (g : ℝ → ℝ → ℝ) (lx ly : List ℝ) (sh : List ℕ) (f : Arr ℝ) : Prop :=
  f.shape = sh ∧ f.data.length = lx.length ∧
    ∀ (k : ℕ) (px py : ℝ), lx[k]? = some px → ly[k]? = some py → f.data[k]? = some (g px py)

theorem lift_ok {α : Type} {e : Except Err α} {a : α} (h : lift e = .ok a) : e = .ok a := by
  cases e with
  | error e => cases h
  | ok b => cases h; rfl

theorem start_alone : C70.start (alone s) 0 = 0 := rfl

/-- What the three methods leave: the mesh, the new fields at its points, and the other fields as they
were. -/
structure After (S : Shape ℝ) (s : Shell ℝ) (c : ℕ → ℝ) (NL : Bool) (names : List String)
    (xs ys : Option (Arr ℝ)) (gridx gridy : ℕ) (o o' : Out ℝ) : Prop where
  mesh : ∃ lx ly sh, o'.mesh = some (⟨sh, lx⟩, ⟨sh, ly⟩) ∧ lx.length = ly.length ∧
    C62.Points s.pan.a s.pan.b xs ys gridx gridy lx ly sh ∧
    ∀ n ∈ names, ∃ f, o'.fields n = some f ∧ HoldsAt (comp S s c NL n) lx ly sh f
  others : ∀ n, n ∉ names → o'.fields n = o.fields n

theorem stored {α : Type} {get : α → ℕ → ℝ} {m : ℕ} {g : ℕ → ℝ → ℝ → ℝ} {names : List String}
    {lx ly : List ℝ} {sh : List ℕ} {vals : List α} (hv : C70.Values get m g lx ly vals)
    {NL : Bool} (hg : ∀ n i, names.idxOf? n = some i → i < m ∧ ∀ x y, g i x y = comp S s c NL n x y)
    (o : Out ℝ) (n : String) (hn : n ∈ names) :
    ∃ f, (o.store names (lx, ly, sh) fun i => vals.map (get · i)).fields n = some f ∧
      HoldsAt (comp S s c NL n) lx ly sh f := by
  obtain ⟨i, hi⟩ : ∃ i, names.idxOf? n = some i := by
    cases h : names.idxOf? n with
    | some i => exact ⟨i, rfl⟩
    | none => exact absurd hn (List.idxOf?_eq_none_iff.1 h)
  obtain ⟨him, hg⟩ := hg n i hi
  refine ⟨⟨sh, vals.map (get · i)⟩, by simp only [Out.store, hi], rfl, by simpa using hv.1, ?_⟩
  intro k px py hx hy
  obtain ⟨v, h1, h2⟩ := hv.2 k px py hx hy
  change (vals.map (get · i))[k]? = _
  rw [List.getElem?_map, h1, Option.map_some, h2 i him, hg]

theorem others_stored {names : List String} {d : List ℝ × List ℝ × List ℕ} {vals : ℕ → List ℝ}
    (o : Out ℝ) (n : String) (hn : n ∉ names) : (o.store names d vals).fields n = o.fields n := by
  simp only [Out.store, List.idxOf?_eq_none_iff.2 hn]

variable {xs ys : Option (Arr ℝ)} {gridx gridy : ℕ} {o o' : Out ℝ}

/-- `Shell.uvw`. -/
theorem uvw (hS : S.C2) (hc : 0 < cores) (hx : C62.Sound xs) (hy : C62.Sound ys)
    (h : s.uvwOut S c xs ys gridx gridy cores o = .ok o') (NL : Bool) :
    After S s c NL displs xs ys gridx gridy o o' := by
  obtain ⟨d, hd, h⟩ := bind_ok.1 h
  have hp := points (lift_ok hd)
  have hl := hp.length hx hy
  split at h
  · cases h
  cases h
  refine ⟨⟨d.1, d.2.1, d.2.2, rfl, hl, hp, fun n hn => ?_⟩, fun n hn => others_stored o n hn⟩
  have hv := C70.uvw_of (S := S) (M := alone s) (c := c) (p := 0) hS hc hl rfl
  exact stored (get := UVW.get) hv (fun n i hi => ⟨C70.displs_lt hi, fun x y => C70.displs_at hi⟩) o n hn

theorem strains_take {n : String} {i : ℕ} (h : (strains.take 6).idxOf? n = some i) :
    i < 6 ∧ strains.idxOf? n = some i := by
  simp only [strains, List.take_succ_cons, List.take_zero, List.idxOf?, List.findIdx?_cons,
    beq_iff_eq, List.findIdx?_nil] at h ⊢
  split_ifs at h ⊢ <;> simp_all <;> omega

theorem stresses_take {n : String} {i : ℕ} (h : (stresses.take 6).idxOf? n = some i) :
    i < 6 ∧ stresses.idxOf? n = some i := by
  simp only [stresses, List.take_succ_cons, List.take_zero, List.idxOf?, List.findIdx?_cons,
    beq_iff_eq, List.findIdx?_nil] at h ⊢
  split_ifs at h ⊢ <;> simp_all <;> omega

/-- `Shell.strain`. -/
theorem strain (hS : S.C2) (hc : 0 < cores) (hx : C62.Sound xs) (hy : C62.Sound ys) {NL : Bool}
    (h : s.strainOut S c xs ys gridx gridy cores NL o = .ok o') :
    After S s c NL (strains.take 6) xs ys gridx gridy o o' := by
  obtain ⟨d, hd, h⟩ := bind_ok.1 h
  have hp := points (lift_ok hd)
  have hl := hp.length hx hy
  split at h
  · cases h
  · cases h
  rename_i r _ hr
  cases h
  refine ⟨⟨d.1, d.2.1, d.2.2, rfl, hl, hp, fun n hn => ?_⟩, fun n hn => others_stored o n hn⟩
  have hv := C70.strain_of (S := S) (M := alone s) (c := c) (p := 0) (NL := NL)
    (v := fstrain S s.panel c d.1 d.2.1 cores NL.toNat) hS hc hl (by
      have e : ((alone s).shells 0).r = some r := hr
      unfold strainOf
      rw [e]; rfl)
  exact stored (get := id) hv (fun n i hi => ⟨(strains_take hi).1, fun x y =>
    C70.strains_at (strains_take hi).2 (strains_take hi).1⟩) o n hn

/-- The names of the strains and the stresses that are computed. -/
def both : List String := strains.take 6 ++ stresses.take 6

theorem get_holds {g : ℝ → ℝ → ℝ} {lx ly : List ℝ} {sh : List ℕ} {n : String}
    (h : ∃ f, o.fields n = some f ∧ HoldsAt g lx ly sh f) :
    (o.get n).length = lx.length ∧ ∀ (k : ℕ) (px py : ℝ), lx[k]? = some px → ly[k]? = some py →
      (o.get n)[k]? = some (g px py) := by
  obtain ⟨f, hf, -, h1, h2⟩ := h
  have e : o.get n = f.data := by simp [Out.get, hf]
  rw [e]
  exact ⟨h1, h2⟩

/-- `Shell.stress`: the strains are stored as well. -/
theorem stress (hS : S.C2) (hc : 0 < cores) (hx : C62.Sound xs) (hy : C62.Sound ys) {NL : Bool}
    (h : s.stressOut S c xs ys gridx gridy cores NL o = .ok o') :
    s.ABD ≠ none ∧ After S s c NL both xs ys gridx gridy o o' := by
  obtain ⟨o1, h1, h⟩ := bind_ok.1 h
  obtain ⟨⟨lx, ly, sh, hm, hl, hp, hs⟩, ho⟩ := strain hS hc hx hy h1
  split at h
  · cases h
  rename_i F hF
  cases h
  have dis : ∀ n ∈ strains.take 6, (stresses.take 6).idxOf? n = none := by decide
  refine ⟨by rw [hF]; simp, ⟨lx, ly, sh, hm, hl, hp, fun n hn => ?_⟩, fun n hn => ?_⟩
  · rcases List.mem_append.1 hn with hn | hn
    · obtain ⟨f, hf, hh⟩ := hs n hn
      exact ⟨f, by simp only [dis n hn, hf], hh⟩
    · obtain ⟨i, hi⟩ : ∃ i, (stresses.take 6).idxOf? n = some i := by
        cases h : (stresses.take 6).idxOf? n with
        | some i => exact ⟨i, rfl⟩
        | none => exact absurd hn (List.idxOf?_eq_none_iff.1 h)
      have hsh : ((o1.fields "exx").map Arr.shape).getD [] = sh := by
        obtain ⟨f, hf, hh, -⟩ := hs "exx" (by decide)
        simp [hf, hh]
      obtain ⟨l0, v0⟩ := get_holds (hs "exx" (by decide))
      obtain ⟨l1, v1⟩ := get_holds (hs "eyy" (by decide))
      obtain ⟨l2, v2⟩ := get_holds (hs "gxy" (by decide))
      obtain ⟨l3, v3⟩ := get_holds (hs "kxx" (by decide))
      obtain ⟨l4, v4⟩ := get_holds (hs "kyy" (by decide))
      obtain ⟨l5, v5⟩ := get_holds (hs "kxy" (by decide))
      refine ⟨⟨sh, o1.stress F i⟩, by simp only [hi, hsh], rfl, ?_, fun k px py hx hy => ?_⟩
      · simp [Out.stress, l0, l1, l2, l3, l4, l5]
      · have e : (o1.stress F i)[k]? = some (C70.stress S s.panel 0 F c NL i px py) := by
          simp only [Out.stress, List.getElem?_zipWith, List.getElem?_map, v0 k px py hx hy,
            v1 k px py hx hy, v2 k px py hx hy, v3 k px py hx hy, v4 k px py hx hy,
            v5 k px py hx hy, Option.map_some]
          refine congrArg some ?_
          simp only [C70.stress, Finset.sum_range_succ, Finset.sum_range_zero, zero_add]
          change C70.strain S s.panel 0 c NL 0 px py * _ + C70.strain S s.panel 0 c NL 1 px py * _
            + C70.strain S s.panel 0 c NL 2 px py * _ + C70.strain S s.panel 0 c NL 3 px py * _
            + C70.strain S s.panel 0 c NL 4 px py * _ + C70.strain S s.panel 0 c NL 5 px py * _ = _
          ring
        rw [e, C70.stresses_at (stresses_take hi).2 (stresses_take hi).1, comp, hF]
        rfl
  · have h1 : n ∉ strains.take 6 := fun h => hn (List.mem_append_left _ h)
    have h2 : n ∉ stresses.take 6 := fun h => hn (List.mem_append_right _ h)
    simp only [List.idxOf?_eq_none_iff.2 h2]
    exact ho n h1

theorem points_unique {a b : ℝ} {lx ly lx' ly' : List ℝ} {sh sh' : List ℕ}
    (h : C62.Points a b xs ys gridx gridy lx ly sh) (h' : C62.Points a b xs ys gridx gridy lx' ly' sh') :
    lx = lx' ∧ ly = ly' ∧ sh = sh' := by
  rcases h with ⟨X, Y, e1, e2, -, rfl, rfl, rfl⟩ | ⟨hn, rfl, h1, h2, h3⟩
  · rcases h' with ⟨X', Y', e1', e2', -, rfl, rfl, rfl⟩ | ⟨hn, -⟩
    · rw [e1] at e1'; rw [e2] at e2'
      cases e1'; cases e2'
      exact ⟨rfl, rfl, rfl⟩
    · rw [e1, e2] at hn; rcases hn with hn | hn <;> cases hn
  · rcases h' with ⟨X', Y', e1', e2', -⟩ | ⟨-, rfl, h1', h2', h3'⟩
    · rw [e1', e2'] at hn; rcases hn with hn | hn <;> cases hn
    · have key : ∀ k < gridy * gridx, lx[k]? = lx'[k]? ∧ ly[k]? = ly'[k]? := by
        intro k hk
        have hg : 0 < gridx := Nat.pos_of_ne_zero fun e => by simp [e] at hk
        have e : k / gridx * gridx + k % gridx = k := Nat.div_add_mod' k gridx
        have m1 := Nat.mod_lt k hg
        have m2 : k / gridx < gridy := Nat.div_lt_of_lt_mul (by rwa [Nat.mul_comm] at hk)
        have a1 := h3 _ m1 _ m2
        have a2 := h3' _ m1 _ m2
        rw [e] at a1 a2
        exact ⟨a1.1.trans a2.1.symm, a1.2.trans a2.2.symm⟩
      refine ⟨List.ext_getElem? fun k => ?_, List.ext_getElem? fun k => ?_, rfl⟩
      · by_cases hk : k < gridy * gridx
        · exact (key k hk).1
        · rw [List.getElem?_eq_none (by omega), List.getElem?_eq_none (by omega)]
      · by_cases hk : k < gridy * gridx
        · exact (key k hk).2
        · rw [List.getElem?_eq_none (by omega), List.getElem?_eq_none (by omega)]

/-! ## The plot -/

variable {A : ShellPlotArgs ℝ} {C : Contour ℝ}

/-- Whether the strains drawn are nonlinear: `NLgeom` counts for stresses only. -/
def flag (A : ShellPlotArgs ℝ) : Bool := if A.vec ∈ strains then true else A.NLgeom

/-- The components that are documented but never computed. -/
def transverse : List String := ["gyz", "gxz", "Qy", "Qx"]

theorem field (hS : S.C2) (hc : 0 < cores) (hx : C62.Sound A.xs) (hy : C62.Sound A.ys)
    (hv : A.vec ∉ transverse) (h : plotField S s c A cores o = .ok o') :
    ∃ names, A.vec ∈ names ∧ (A.vec ∈ displs → names = displs) ∧
      After S s c (flag A) names A.xs A.ys A.gridx A.gridy o o' := by
  have ht : ∀ n ∈ strains, n ∉ transverse → n ∈ strains.take 6 := by decide
  have ht' : ∀ n ∈ stresses, n ∉ transverse → n ∈ both := by decide
  unfold plotField at h
  split at h
  · rename_i hm
    exact ⟨displs, hm, fun _ => rfl, uvw hS hc hx hy h _⟩
  rename_i hn
  split at h
  · rename_i hm
    refine ⟨strains.take 6, ht _ hm hv, fun h => absurd h hn, ?_⟩
    rw [flag, if_pos hm]
    exact strain hS hc hx hy h
  rename_i hn'
  split at h
  · rename_i hm
    refine ⟨both, ht' _ hm hv, fun h => absurd h hn, ?_⟩
    rw [flag, if_neg hn']
    exact (stress hS hc hx hy h).2
  · cases h

theorem shift_holds {lx ly l : List ℝ} {sh : List ℕ} (k : ℝ) (g : ℝ → ℝ → ℝ)
    (h : HoldsAt g lx ly sh ⟨sh, l⟩) :
    HoldsAt (fun x y => g x y + k) lx ly sh (Arr.shift ⟨sh, l⟩ k) := by
  refine ⟨rfl, by simpa [Arr.shift] using h.2.1, fun i px py hx hy => ?_⟩
  have : l[i]? = some (g px py) := h.2.2 i px py hx hy
  simp only [Arr.shift, List.getElem?_map, this, Option.map_some]

theorem addMul_holds {lx ly : List ℝ} {sh : List ℕ} {X V : Arr ℝ} (k : ℝ) {g v : ℝ → ℝ → ℝ}
    (h : HoldsAt g lx ly sh X) (hv : HoldsAt v lx ly sh V) :
    HoldsAt (fun x y => g x y + k * v x y) lx ly sh (X.addMul k V) := by
  refine ⟨h.1, by simp [Arr.addMul, h.2.1, hv.2.1], fun i px py hx hy => ?_⟩
  simp only [Arr.addMul, List.getElem?_zipWith, h.2.2 i px py hx hy, hv.2.2 i px py hx hy]

/-- What is drawn: at every point asked for, the component asked for; the horizontal coordinate is
`y + offset + sf v`, the vertical one `x + offset - sf u`.  Full claim: also with `NLgeom` for the strains,
and von Karman strains: missing is the linear strain (see `flag`) and the shear strain (see `C70`). -/
theorem shown_partial (hS : S.C2) (hc : 0 < cores) (hx : C62.Sound A.xs) (hy : C62.Sound A.ys)
    (hv : A.vec ∉ transverse) (h : plotShell S s c A cores o = .ok (C, o')) :
    ∃ lx ly sh, C62.Points s.pan.a s.pan.b A.xs A.ys A.gridx A.gridy lx ly sh ∧
      lx.length = ly.length ∧ o'.mesh = some (⟨sh, lx⟩, ⟨sh, ly⟩) ∧
      HoldsAt (comp S s c (flag A) A.vec) lx ly sh C.val ∧
      HoldsAt (fun x y => y + A.offY + (if A.deform then A.sf * u S s.panel 0 c 1 x y else 0))
        lx ly sh C.x ∧
      HoldsAt (fun x y => x + A.offX - (if A.deform then A.sf * u S s.panel 0 c 0 x y else 0))
        lx ly sh C.y ∧
      (o.fields A.vec = none → o'.fields A.vec = some C.val) := by
  obtain ⟨o1, h1, h⟩ := bind_ok.1 h
  obtain ⟨names, hn, hdis, ⟨lx, ly, sh, hm, hl, hp, hs⟩, ho⟩ := field hS hc hx hy hv h1
  obtain ⟨f, hf, hh⟩ := hs _ hn
  rw [hm, hf] at h
  simp only at h
  obtain ⟨lo, hlo, h⟩ := bind_ok.1 h
  obtain ⟨hi, hhi, h⟩ := bind_ok.1 h
  obtain ⟨d, hd, h⟩ := bind_ok.1 h
  cases h
  have bx : HoldsAt (fun x y => y + A.offY) lx ly sh (Arr.shift ⟨sh, ly⟩ A.offY) :=
    shift_holds A.offY (fun _ y => y) ⟨rfl, hl.symm, fun _ _ _ _ h => h⟩
  have by' : HoldsAt (fun x y => x + A.offX) lx ly sh (Arr.shift ⟨sh, lx⟩ A.offX) :=
    shift_holds A.offX (fun x _ => x) ⟨rfl, rfl, fun _ _ _ h _ => h⟩
  unfold plotDeform at hd
  split at hd
  · rename_i hdef
    obtain ⟨o2, h2, hd⟩ := bind_ok.1 hd
    have key : o2.mesh = some (⟨sh, lx⟩, ⟨sh, ly⟩) ∧ o2.fields A.vec = some f ∧
        ∀ n ∈ displs, ∃ f, o2.fields n = some f ∧ HoldsAt (comp S s c (flag A) n) lx ly sh f := by
      unfold plotUvw at h2
      split at h2
      · rename_i hm'
        cases h2
        rw [hdis hm'] at hs
        exact ⟨hm, hf, hs⟩
      · rename_i hm'
        obtain ⟨⟨lx', ly', sh', hm2, -, hp2, hs2⟩, ho2⟩ := uvw hS hc hx hy h2 (flag A)
        obtain ⟨rfl, rfl, rfl⟩ := points_unique hp hp2
        exact ⟨hm2, (ho2 _ hm').trans hf, hs2⟩
    obtain ⟨k1, k2, k3⟩ := key
    obtain ⟨fu, hfu, hu⟩ := k3 "u" (by decide)
    obtain ⟨fv, hfv, hv⟩ := k3 "v" (by decide)
    rw [hfu, hfv] at hd
    cases hd
    refine ⟨lx, ly, sh, hp, hl, k1, hh, ?_, ?_, fun hn => ?_⟩
    · simp only [hdef, if_true]
      exact addMul_holds A.sf bx hv
    · simp only [hdef, if_true]
      have := addMul_holds (-A.sf) by' hu
      simp only [neg_mul, ← sub_eq_add_neg] at this
      exact this
    · simp only [hn, k2]
      rfl
  · rename_i hdef
    cases hd
    refine ⟨lx, ly, sh, hp, hl, hm, hh, ?_, ?_, fun hn => ?_⟩
    · simpa only [hdef, if_false, add_zero, Bool.false_eq_true] using bx
    · simpa only [hdef, if_false, sub_zero, Bool.false_eq_true] using by'
    · simp only [hn, hf]
      rfl

/-- The limits of the scale are the given ones or the least and the greatest value drawn, and the levels
divide the interval between them evenly. -/
theorem scale (h : plotShell S s c A cores o = .ok (C, o')) :
    ∃ lo hi, C71.Low A.vecmin C.val.data lo ∧ C71.High A.vecmax C.val.data hi ∧
      C.levels.length = A.numLevels ∧ ∀ i < A.numLevels,
        C.levels[i]? = some (lo + i * ((hi - lo) / (A.numLevels - 1))) := by
  obtain ⟨o1, h1, h⟩ := bind_ok.1 h
  split at h
  · obtain ⟨lo, hlo, h⟩ := bind_ok.1 h
    obtain ⟨hi, hhi, h⟩ := bind_ok.1 h
    obtain ⟨d, hd, h⟩ := bind_ok.1 h
    cases h
    exact ⟨lo, hi, C71.low hlo, C71.high hhi, by simp [linspace], fun i hi => by simp [linspace, hi]⟩
  · cases h

/-- A plot keeps every field that was stored before. -/
theorem kept (h : plotShell S s c A cores o = .ok (C, o')) {n : String} {f : Arr ℝ}
    (hf : o.fields n = some f) : o'.fields n = some f := by
  obtain ⟨o1, h1, h⟩ := bind_ok.1 h
  split at h
  · obtain ⟨lo, hlo, h⟩ := bind_ok.1 h
    obtain ⟨hi, hhi, h⟩ := bind_ok.1 h
    obtain ⟨d, hd, h⟩ := bind_ok.1 h
    cases h
    simp only [hf]
    rfl
  · cases h

/-- Every displacement component of a panel of a known model can be drawn on a grid. -/
theorem exists_displ (S : Shape ℝ) (s : Shell ℝ) (c : ℕ → ℝ) (A : ShellPlotArgs ℝ) (cores : ℕ)
    (o : Out ℝ) (hS : S.C2) (hc : 0 < cores) (hm : ∃ k, s.model.bind kindOf = some k)
    (hv : A.vec ∈ displs) (hxs : A.xs = none) (hx : 0 < A.gridx) (hy : 0 < A.gridy) (hys : C62.Sound A.ys) :
    ∃ C o', plotShell S s c A cores o = .ok (C, o') := by
  obtain ⟨k, hk⟩ := hm
  obtain ⟨d, hd⟩ : ∃ d, defaultField s.panel A.xs A.ys A.gridx A.gridy = .ok d := by
    rw [hxs]
    exact ⟨(meshX (linspace 0 s.panel.a A.gridx) (linspace 0 s.panel.b A.gridy),
      meshY (linspace 0 s.panel.a A.gridx) (linspace 0 s.panel.b A.gridy), [A.gridy, A.gridx]), by
      simp [defaultField, meshX, meshY]⟩
  obtain ⟨o1, ho⟩ : ∃ o1, s.uvwOut S c A.xs A.ys A.gridx A.gridy cores o = .ok o1 :=
    ⟨_, bind_ok.2 ⟨d, by rw [hd]; rfl, by rw [hk]; rfl⟩⟩
  have hfield : plotField S s c A cores o = .ok o1 := by rw [plotField, if_pos hv, ho]
  obtain ⟨⟨lx, ly, sh, hm, hl, hp, hs⟩, -⟩ := uvw hS hc (by rw [hxs]; intro X h; cases h) hys ho true
  obtain ⟨f, hf, hh⟩ := hs _ hv
  have hne : f.data ≠ [] := by
    rcases hp with ⟨X, Y, e, -⟩ | ⟨-, -, h1, -⟩
    · rw [hxs] at e; cases e
    · intro e
      have := hh.2.1
      rw [e, h1] at this
      have := Nat.mul_pos hy hx
      simp at *
      omega
  obtain ⟨lo, hlo⟩ : ∃ lo, A.vecmin.elim (minOf f.data) .ok = (.ok lo : Except Fail ℝ) := by
    cases A.vecmin with
    | some a => exact ⟨a, rfl⟩
    | none =>
      cases hq : f.data with
      | nil => exact absurd hq hne
      | cons a l => exact ⟨_, rfl⟩
  obtain ⟨hi, hhi⟩ : ∃ hi, A.vecmax.elim (maxOf f.data) .ok = (.ok hi : Except Fail ℝ) := by
    cases A.vecmax with
    | some a => exact ⟨a, rfl⟩
    | none =>
      cases hq : f.data with
      | nil => exact absurd hq hne
      | cons a l => exact ⟨_, rfl⟩
  obtain ⟨fu, hfu, -⟩ := hs "u" (by decide)
  obtain ⟨fv, hfv, -⟩ := hs "v" (by decide)
  obtain ⟨d, hd⟩ : ∃ d, plotDeform S s c A cores o1 (Arr.shift ⟨sh, ly⟩ A.offY)
      (Arr.shift ⟨sh, lx⟩ A.offX) = .ok d := by
    unfold plotDeform
    split
    · exact ⟨_, bind_ok.2 ⟨o1, by rw [plotUvw, if_pos hv], by rw [hfu, hfv]; rfl⟩⟩
    · exact ⟨_, rfl⟩
  refine ⟨⟨d.1, d.2.1, f, linspace lo hi A.numLevels⟩,
    ⟨d.2.2.mesh, fun k => (o.fields k).orElse fun _ => d.2.2.fields k⟩, bind_ok.2 ⟨o1, hfield, ?_⟩⟩
  rw [hm, hf]
  exact bind_ok.2 ⟨lo, hlo, bind_ok.2 ⟨hi, hhi, bind_ok.2 ⟨d, hd, rfl⟩⟩⟩

/-! ## What goes wrong -/

/-- A name that is not documented gives `ValueError`. -/
theorem unknown (S : Shape ℝ) (s : Shell ℝ) (c : ℕ → ℝ) (A : ShellPlotArgs ℝ) (cores : ℕ) (o : Out ℝ)
    (h : A.vec ∉ ["u", "v", "w", "phix", "phiy", "exx", "eyy", "gxy", "kxx", "kyy", "kxy", "gyz", "gxz",
      "Nxx", "Nyy", "Nxy", "Mxx", "Myy", "Mxy", "Qy", "Qx"]) :
    plotShell S s c A cores o = .error (.raised .valueError) := by
  simp only [List.mem_cons, not_or] at h
  have e : plotField S s c A cores o = .error (.raised .valueError) := by
    rw [plotField, if_neg (by simp [displs, h]), if_neg (by simp [strains, h]),
      if_neg (by simp [stresses, h])]
  simp only [plotShell, e]
  rfl

/-- The four transverse shear components are documented, and can never be drawn. -/
theorem transverse_violated (hS : S.C2) (hc : 0 < cores) (hx : C62.Sound A.xs) (hy : C62.Sound A.ys)
    (hv : A.vec ∈ transverse) (ho : o.fields A.vec = none) :
    ¬ ∃ C o', plotShell S s c A cores o = .ok (C, o') := by
  rintro ⟨C, o', h⟩
  obtain ⟨o1, h1, h⟩ := bind_ok.1 h
  have hn : ∀ n ∈ transverse, n ∉ displs ∧ n ∉ strains.take 6 ∧ n ∉ both := by decide
  obtain ⟨n1, n2, n3⟩ := hn _ hv
  have e : o1.fields A.vec = none := by
    unfold plotField at h1
    rw [if_neg n1] at h1
    split at h1
    · rw [(strain hS hc hx hy h1).others _ n2, ho]
    split at h1
    · rw [(stress hS hc hx hy h1).2.others _ n3, ho]
    · cases h1
  rw [e] at h
  cases hm : o1.mesh <;> rw [hm] at h <;> cases h

/-- Strain plots do not depend on `NLgeom`: with `NLgeom=False` they show the nonlinear strains. -/
theorem flag_ignored (S : Shape ℝ) (s : Shell ℝ) (c : ℕ → ℝ) (A : ShellPlotArgs ℝ) (cores : ℕ)
    (o : Out ℝ) (hv : A.vec ∈ strains) (b : Bool) :
    plotShell S s c { A with NLgeom := b } cores o = plotShell S s c A cores o := by
  have hd : ∀ n ∈ strains, n ∉ displs := by decide
  have e : plotField S s c { A with NLgeom := b } cores o = plotField S s c A cores o := by
    simp only [plotField, if_neg (hd _ hv), if_pos hv]
  unfold plotShell
  rw [e]
  rfl

/-- The claim that the stored fields are fields at the points of the stored mesh. -/
def Consistent (o : Out ℝ) : Prop :=
  ∀ m n f, o.mesh = some m → o.fields n = some f → f.shape = m.1.shape

/-! ## Concrete cases -/

/-- A flat panel whose matrices have been computed. -/
noncomputable def plate : Shell ℝ := { C40.shell with
  r := some 0
  model := some "plate_clpt_donnell_bardell"
  ABD := some fun i j => if i = j then 2 else 0 }

theorem plate_exists (A : ShellPlotArgs ℝ) (o : Out ℝ) (hv : A.vec ∈ displs) (hxs : A.xs = none)
    (hys : A.ys = none) (hx : 0 < A.gridx) (hy : 0 < A.gridy) :
    ∃ C o', plotShell (bardellShape ℝ) plate (fun k => k) A 4 o = .ok (C, o') :=
  exists_displ _ _ _ _ _ _ bardellShape_C2 (by norm_num) ⟨.plate, rfl⟩ hv hxs hx hy
    (by rw [hys]; intro X h; cases h)

/-- Violated: after `uvw` on a 2 by 3 grid and a plot on the default grid, `w` is the field on the
small grid and the mesh is the large one. -/
theorem mesh_violated : ∃ o1 C o2,
    plate.uvwOut (bardellShape ℝ) (fun k => k) none none 2 3 4 Out.clear = .ok o1 ∧ Consistent o1 ∧
    plotShell (bardellShape ℝ) plate (fun k => k) {} 4 o1 = .ok (C, o2) ∧ ¬ Consistent o2 := by
  obtain ⟨o1, h1⟩ : ∃ o1, plate.uvwOut (bardellShape ℝ) (fun k => k) none none 2 3 4 Out.clear
      = .ok o1 := by
    refine ⟨_, bind_ok.2 ⟨(meshX (linspace 0 plate.panel.a 2) (linspace 0 plate.panel.b 3),
      meshY (linspace 0 plate.panel.a 2) (linspace 0 plate.panel.b 3), [3, 2]), ?_, rfl⟩⟩
    simp [defaultField, meshX, meshY, lift]
  obtain ⟨C, o2, h2⟩ := plate_exists {} o1 (by decide) rfl rfl (by norm_num) (by norm_num)
  have sound : C62.Sound (none : Option (Arr ℝ)) := fun X h => nomatch h
  obtain ⟨⟨lx, ly, sh, hm, -, hp, hs⟩, ho⟩ := uvw bardellShape_C2 (by norm_num) sound sound h1 true
  obtain ⟨fw, hw, hh⟩ := hs "w" (by decide)
  obtain ⟨lx', ly', sh', hp', -, hm', -⟩ := shown_partial bardellShape_C2 (by norm_num) sound sound
    (by decide) h2
  have e : sh = [3, 2] := by
    rcases hp with ⟨X, Y, e, -⟩ | ⟨-, e, -⟩
    · cases e
    · exact e
  have e' : sh' = [300, 300] := by
    rcases hp' with ⟨X, Y, e, -⟩ | ⟨-, e, -⟩
    · cases e
    · exact e
  refine ⟨o1, C, o2, h1, fun m n f hm1 hf => ?_, h2, fun hcons => ?_⟩
  · rw [hm] at hm1
    cases hm1
    by_cases hn : n ∈ displs
    · obtain ⟨f', hf', hh'⟩ := hs n hn
      rw [hf] at hf'
      cases hf'
      exact hh'.1
    · rw [ho n hn] at hf
      cases hf
  · have := hcons _ "w" fw hm' (kept h2 hw)
    rw [hh.1, e, e'] at this
    cases this

example : ∃ C o', plotShell (bardellShape ℝ) plate (fun k => k)
      { vec := "phix", deform := true, gridx := 50, offY := 3 } 4 Out.clear = .ok (C, o') ∧
    C.val.shape = [300, 50] := by
  obtain ⟨C, o', h⟩ := plate_exists { vec := "phix", deform := true, gridx := 50, offY := 3 } Out.clear
    (by decide) rfl rfl (by norm_num) (by norm_num)
  have sound : C62.Sound (none : Option (Arr ℝ)) := fun X h => nomatch h
  obtain ⟨lx, ly, sh, hp, -, -, hv, -⟩ := shown_partial bardellShape_C2 (by norm_num) sound sound
    (by decide) h
  refine ⟨C, o', h, hv.1.trans ?_⟩
  rcases hp with ⟨X, Y, e, -⟩ | ⟨-, e, -⟩
  · cases e
  · exact e

example : ({ vec := "gxz" } : ShellPlotArgs ℝ).vec ∈ transverse ∧
    (Out.clear : Out ℝ).fields "gxz" = none := ⟨by decide, rfl⟩

example : ({ vec := "kxy" } : ShellPlotArgs ℝ).vec ∈ strains := by decide

example : plotShell (bardellShape ℝ) plate (fun k => k) { vec := "sigma" } 4 Out.clear
    = .error (.raised .valueError) := unknown _ _ _ _ _ _ (by decide)

end Verif.C72

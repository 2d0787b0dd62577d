import Verif.Model.BayOut
import Verif.Props.C29
import Verif.Props.C52

/-!
# C62: the displacements of a bay

Given a full vector of amplitudes, `uvw_skin` should give the displacements of the skin and
`uvw_stiffener(si)` those of the flange of that stiffener, which are on its own block (`C52.start`).
The skin is right (`skin`).  Of the stiffeners only the first of the list works (`flange_partial`):
for a later one the loop asks the stiffener before for a size, which it does not have (`later_fails`).
-/

set_option linter.unusedSectionVars false

namespace Verif.C62

open Model Spec

variable {K : Type} [Field K] [LinearOrder K]

/-- The output `o` at a point is the field of the amplitudes from `s0` on. -/
def IsField (S : Shape K) (P : Panel K) (s0 : ℕ) (c : ℕ → K) (x y : K) (o : UVW K) : Prop :=
  let ξ := 2 * x / P.a - 1
  let η := 2 * y / P.b - 1
  o.u = disp S P s0 c 0 0 0 ξ η ∧ o.v = disp S P s0 c 1 0 0 ξ η ∧ o.w = disp S P s0 c 2 0 0 ξ η ∧
    o.phix = - disp S P s0 c 2 1 0 ξ η ∧ o.phiy = - disp S P s0 c 2 0 1 ξ η

/-- The points asked for: those given, or else a grid of `gridx` by `gridy` points from edge to edge. -/
def Points (a b : K) (xs ys : Option (Arr K)) (gridx gridy : ℕ) (lx ly : List K) (sh : List ℕ) : Prop :=
  (∃ X Y, xs = some X ∧ ys = some Y ∧ X.shape = Y.shape ∧ lx = X.data ∧ ly = Y.data ∧ sh = X.shape) ∨
    ((xs = none ∨ ys = none) ∧ sh = [gridy, gridx] ∧ lx.length = gridy * gridx ∧
      ly.length = gridy * gridx ∧ ∀ i < gridx, ∀ j < gridy,
        lx[j * gridx + i]? = some (i * (a / (gridx - 1))) ∧
        ly[j * gridx + i]? = some (j * (b / (gridy - 1))))

theorem flatMap_get {α β : Type*} (l : List α) (n : ℕ) (f : α → List β) (hf : ∀ x, (f x).length = n)
    (i j : ℕ) (hi : i < n) (hj : j < l.length) :
    (l.flatMap f)[j * n + i]? = (f l[j])[i]? := by
  induction l generalizing j with
  | nil => simp at hj
  | cons a l ih =>
    rw [List.flatMap_cons]
    cases j with
    | zero =>
      rw [List.getElem?_append_left (by rw [hf]; omega)]
      simp
    | succ j =>
      rw [List.getElem?_append_right (by rw [hf]; nlinarith), hf,
        show (j + 1) * n + i - n = j * n + i by rw [Nat.succ_mul]; omega,
        ih j (by simpa using hj)]
      simp

theorem points {a b : K} {xs ys : Option (Arr K)} {gridx gridy : ℕ} {d : List K × List K × List ℕ}
    (h : bayPoints a b xs ys gridx gridy = .ok d) : Points a b xs ys gridx gridy d.1 d.2.1 d.2.2 := by
  have grid : ∀ d : List K × List K × List ℕ,
      d = ((linspace 0 b gridy).flatMap fun _ => linspace 0 a gridx,
        (linspace 0 b gridy).flatMap fun y => (linspace 0 a gridx).map fun _ => y, [gridy, gridx]) →
      d.2.2 = [gridy, gridx] ∧ d.1.length = gridy * gridx ∧
      d.2.1.length = gridy * gridx ∧ ∀ i < gridx, ∀ j < gridy,
        d.1[j * gridx + i]? = some (i * (a / (gridx - 1))) ∧
        d.2.1[j * gridx + i]? = some (j * (b / (gridy - 1))) := by
    rintro d rfl
    refine ⟨rfl, ?_, ?_, fun i hi j hj => ⟨?_, ?_⟩⟩
    · simp [linspace, Function.comp_def]
    · simp [linspace, Function.comp_def]
    · rw [flatMap_get _ gridx _ (fun _ => by simp [linspace]) i j hi (by simpa [linspace] using hj)]
      simp [linspace, hi]
    · rw [flatMap_get _ gridx _ (fun _ => by simp [linspace]) i j hi (by simpa [linspace] using hj)]
      simp [linspace, hi]
  unfold bayPoints at h
  match xs, ys with
  | some X, some Y =>
    simp only at h
    split at h
    · cases h
    · split at h
      · cases h
      · cases h
        exact .inl ⟨X, Y, rfl, rfl, not_not.1 ‹_›, rfl, rfl, rfl⟩
  | none, ys =>
    cases h
    exact .inr ⟨.inl rfl, grid _ rfl⟩
  | some X, none =>
    cases h
    exact .inr ⟨.inr rfl, grid _ rfl⟩

/-- An array has as many elements as its shape says. -/
def Sound (o : Option (Arr K)) : Prop := ∀ X, o = some X → X.data.length = X.shape.prod

theorem Points.length {a b : K} {xs ys : Option (Arr K)} {gridx gridy : ℕ} {lx ly : List K}
    {sh : List ℕ} (h : Points a b xs ys gridx gridy lx ly sh) (hx : Sound xs) (hy : Sound ys) :
    lx.length = ly.length := by
  rcases h with ⟨X, Y, e1, e2, e3, rfl, rfl, -⟩ | ⟨-, -, h1, h2, -⟩
  · rw [hx X e1, hy Y e2, e3]
  · rw [h1, h2]

/-- The displacements of the skin. -/
theorem skin {S : Shape K} {B : OutBay K} {len : ℕ} {c : ℕ → K} {xs ys : Option (Arr K)}
    {gridx gridy cores : ℕ} (hc : 0 < cores) (hx : Sound xs) (hy : Sound ys) {sh : List ℕ}
    {out : List (UVW K)}
    (h : B.uvwSkin S len c xs ys gridx gridy cores = .ok (sh, out)) :
    B.getSize = .ok len ∧ ∃ lx ly, Points B.skin.a B.skin.b xs ys gridx gridy lx ly sh ∧
      out.length = lx.length ∧ lx.length = ly.length ∧
      ∀ (k : ℕ) (x y : K), lx[k]? = some x → ly[k]? = some y →
        ∃ o, out[k]? = some o ∧ IsField S B.skin 0 c x y o := by
  unfold OutBay.uvwSkin at h
  obtain ⟨n, hn, h⟩ := bind_ok.1 h
  by_cases hl : len ≠ n
  · rw [if_pos hl] at h; cases h
  rw [if_neg hl] at h
  rw [not_not] at hl
  obtain ⟨d, hd, h⟩ := bind_ok.1 h
  cases h
  have hp := points hd
  have hlen := hp.length hx hy
  obtain ⟨h1, h2⟩ := C29.uvw_points S B.skin c d.1 d.2.1 hlen cores hc
  refine ⟨by rw [hl]; exact hn, d.1, d.2.1, hp, h1, hlen, fun k x y hkx hky => ?_⟩
  obtain ⟨hk, e1⟩ := List.getElem?_eq_some_iff.1 hkx
  obtain ⟨hk', e2⟩ := List.getElem?_eq_some_iff.1 hky
  obtain ⟨o, ho, hf⟩ := h2 k hk
  refine ⟨o, ho, ?_⟩
  rw [e1, e2] at hf
  exact hf

/-- The vector has to have the size of the bay, and then the skin has displacements, on the grid or at
points given one-dimensionally. -/
theorem skin_exists {S : Shape K} {B : OutBay K} {len : ℕ} {c : ℕ → K} {xs ys : Option (Arr K)}
    {gridx gridy cores : ℕ} (hn : B.getSize = .ok len)
    (hp : (xs = none ∨ ys = none) ∨ ∃ X Y n, xs = some X ∧ ys = some Y ∧ X.shape = [n] ∧ Y.shape = [n]) :
    ∃ o, B.uvwSkin S len c xs ys gridx gridy cores = .ok o := by
  have : ∃ d, bayPoints B.skin.a B.skin.b xs ys gridx gridy = .ok d := by
    unfold bayPoints
    rcases hp with hp | ⟨X, Y, n, rfl, rfl, e1, e2⟩
    · match xs, ys, hp with
      | none, _, _ => exact ⟨_, rfl⟩
      | some _, none, _ => exact ⟨_, rfl⟩
      | some _, some _, hp => rcases hp with h | h <;> cases h
    · simp [e1, e2]
  obtain ⟨d, hd⟩ := this
  unfold OutBay.uvwSkin
  simp only [hn, hd, bind, Except.bind, ne_eq, not_true_eq_false, if_false]
  exact ⟨_, rfl⟩

/-- Points given as a two-dimensional array, which `Shell.uvw` takes, are refused. -/
theorem array_fails {S : Shape K} {B : OutBay K} {len : ℕ} {c : ℕ → K} {X Y : Arr K}
    {gridx gridy cores : ℕ} (hX : X.shape.length = 2) (x : List ℕ × List (UVW K)) :
    B.uvwSkin S len c (some X) (some Y) gridx gridy cores ≠ .ok x := by
  intro h
  unfold OutBay.uvwSkin at h
  obtain ⟨n, hn, h⟩ := bind_ok.1 h
  by_cases hl : len ≠ n
  · rw [if_pos hl] at h; cases h
  rw [if_neg hl] at h
  obtain ⟨d, hd, h⟩ := bind_ok.1 h
  unfold bayPoints at hd
  simp only at hd
  rw [if_pos (.inl (by omega))] at hd
  cases hd

/-- The list of all stiffeners holds the 2D stiffeners in the order of their own list. -/
def Listed (B : OutBay K) : Prop :=
  B.stiffeners.filter StiffRef.isTwo = (List.range B.blade2.length).map StiffRef.two

/-- It does so for every bay that is built up by the methods. -/
theorem listed_add1 {E : BayEnv K} {B B' : OutBay K} {ys : K} {rho bb bf : Option K}
    {base flange : LamArgs K} (h : Listed B) (hB : B.addBlade1 E ys rho bb bf base flange = .ok B') :
    Listed B' := by
  unfold OutBay.addBlade1 at hB
  obtain ⟨R, hR, hB⟩ := bind_ok.1 hB
  cases hB
  have e : R.blade2 = B.blade2 := by
    unfold Bay.addBlade1 at hR
    split at hR
    · cases hR
    · obtain ⟨_, _, hR⟩ := bind_ok.1 hR
      obtain ⟨_, _, hR⟩ := bind_ok.1 hR
      obtain ⟨_, _, hR⟩ := bind_ok.1 hR
      obtain ⟨_, _, hR⟩ := bind_ok.1 hR
      cases hR
      rfl
  unfold Listed at h ⊢
  simp [StiffRef.isTwo, h, e]

theorem listed_add2 {E : BayEnv K} {B B' : OutBay K} {ys : K} {rho bb bf : Option K}
    {base flange : LamArgs K} {mf nf : ℕ} (h : Listed B)
    (hB : B.addBlade2 E ys rho bb bf base flange mf nf = .ok B') : Listed B' := by
  unfold OutBay.addBlade2 at hB
  obtain ⟨R, hR, hB⟩ := bind_ok.1 hB
  cases hB
  have e : R.blade2.length = B.blade2.length + 1 := by
    unfold Bay.addBlade2 at hR
    split at hR
    · cases hR
    · obtain ⟨_, _, hR⟩ := bind_ok.1 hR
      obtain ⟨_, _, hR⟩ := bind_ok.1 hR
      obtain ⟨_, _, hR⟩ := bind_ok.1 hR
      obtain ⟨_, _, hR⟩ := bind_ok.1 hR
      obtain ⟨_, _, hR⟩ := bind_ok.1 hR
      obtain ⟨_, _, hR⟩ := bind_ok.1 hR
      cases hR
      simp
  unfold Listed at h ⊢
  simp [StiffRef.isTwo, h, e, List.range_succ]

/-- The first of the list, if it is 2D, is the first of the 2D stiffeners. -/
theorem first_listed {B : OutBay K} (h : Listed B) {i : ℕ} (h0 : B.stiffeners[0]? = some (.two i)) :
    i = 0 := by
  unfold Listed at h
  cases hs : B.stiffeners with
  | nil => rw [hs] at h0; cases h0
  | cons a l =>
    rw [hs] at h0
    cases h0
    rw [hs, List.filter_cons_of_pos rfl] at h
    cases hb : B.blade2.length with
    | zero => rw [hb] at h; cases h
    | succ n =>
      rw [hb, List.range_succ_eq_map] at h
      simp only [List.map_cons, List.cons.injEq, StiffRef.two.injEq] at h
      exact h.1

theorem rowInit_zero (l : List StiffRef) (start : ℕ) : rowInit l 0 start = .ok start := by
  rfl

/-- For a 2D stiffener that is not the first of the list the loop fails. -/
theorem rowInit_later (l : List StiffRef) {si i : ℕ} (start : ℕ) (h : l[si]? = some (.two i))
    (h0 : 0 < si) (n : ℕ) : rowInit l si start ≠ .ok n := by
  intro hc
  unfold rowInit at hc
  rw [List.range_succ, List.foldlM_append] at hc
  obtain ⟨r, -, hc⟩ := bind_ok.1 hc
  rw [List.foldlM_cons] at hc
  obtain ⟨r', hr, -⟩ := bind_ok.1 hc
  rw [if_pos ⟨h0, .two i, h, rfl⟩] at hr
  cases hr

/-- What the calculation for a flange needs and gives. -/
theorem flange_ok {S : Shape K} {B : OutBay K} {len : ℕ} {c : ℕ → K} {si : ℕ} {region : String}
    {xs ys : Option (Arr K)} {gridx gridy cores : ℕ} {o : List ℕ × List (UVW K)}
    (h : B.uvwStiffener S len c si region xs ys gridx gridy cores = .ok o) :
    ∃ i s f d, B.stiffeners[si]? = some (.two i) ∧ B.blade2[i]? = some s ∧ s.flange = some f ∧
      rowInit B.stiffeners si (3 * B.skin.m * B.skin.n) = .ok (3 * B.skin.m * B.skin.n) ∧ si = 0 ∧
      B.getSize = .ok len ∧ bayPoints B.skin.a f.pan.b xs ys gridx gridy = .ok d ∧
      o = (d.2.2, fuvw S f.panel (fun k => c (3 * B.skin.m * B.skin.n + k)) d.1 d.2.1 cores) := by
  unfold OutBay.uvwStiffener at h
  split at h
  · cases h
  · cases h
  · next i hi =>
    by_cases hb : lower region = "base"
    · rw [if_pos hb] at h; cases h
    rw [if_neg hb] at h
    obtain ⟨d, hd, h⟩ := bind_ok.1 h
    obtain ⟨row, hrow, h⟩ := bind_ok.1 h
    by_cases hf : lower region ≠ "flange"
    · rw [if_pos hf] at h; cases h
    rw [if_neg hf] at h
    obtain ⟨f, hfl, h⟩ := bind_ok.1 h
    obtain ⟨_, _, h⟩ := bind_ok.1 h
    obtain ⟨n, hn, h⟩ := bind_ok.1 h
    by_cases hl : len ≠ n
    · rw [if_pos hl] at h; cases h
    rw [if_neg hl] at h
    rw [not_not] at hl
    obtain ⟨p, hp, h⟩ := bind_ok.1 h
    cases h
    have hsi : si = 0 := by
      by_contra h0
      exact rowInit_later _ _ hi (Nat.pos_of_ne_zero h0) _ hrow
    have hd' : d = 3 * B.skin.m * B.skin.n := by
      unfold Bay.skinSize at hd
      split at hd
      · cases hd
      · cases hd; rfl
    subst hsi
    rw [rowInit_zero] at hrow
    cases hrow
    subst hd'
    unfold flangeAt at hfl
    split at hfl
    · cases hfl
    · next s hs =>
      split at hfl
      · cases hfl
      · next g hg =>
        cases hfl
        exact ⟨i, s, f, p, hi, hs, hg, rowInit_zero _ _, rfl, by rw [hl]; exact hn, hp, rfl⟩

/-- The displacements of the flange of the first stiffener: those of its own block of the vector.
Missing: all other stiffeners (`later_fails`). -/
theorem flange_partial {S : Shape K} {B : OutBay K} (hL : Listed B) {len : ℕ} {c : ℕ → K} {si : ℕ}
    {region : String} {xs ys : Option (Arr K)} {gridx gridy cores : ℕ} (hc : 0 < cores)
    (hx : Sound xs) (hy : Sound ys) {sh : List ℕ} {out : List (UVW K)}
    (h : B.uvwStiffener S len c si region xs ys gridx gridy cores = .ok (sh, out)) :
    B.getSize = .ok len ∧ ∃ i s f lx ly, B.stiffeners[si]? = some (.two i) ∧ B.blade2[i]? = some s ∧
      s.flange = some f ∧ Points B.skin.a f.pan.b xs ys gridx gridy lx ly sh ∧
      out.length = lx.length ∧ lx.length = ly.length ∧
      ∀ (k : ℕ) (x y : K), lx[k]? = some x → ly[k]? = some y →
        ∃ o, out[k]? = some o ∧ IsField S f.panel (C52.start B.toBay i) c x y o := by
  obtain ⟨i, s, f, d, hi, hs, hf, -, rfl, hn, hd, e⟩ := flange_ok h
  cases e
  have := first_listed hL hi
  subst this
  have hp := points hd
  have hlen := hp.length hx hy
  obtain ⟨h1, h2⟩ := C29.uvw_points S f.panel (fun k => c (3 * B.skin.m * B.skin.n + k)) d.1 d.2.1
    hlen cores hc
  refine ⟨hn, 0, s, f, d.1, d.2.1, hi, hs, hf, hp, h1, hlen, fun k x y hkx hky => ?_⟩
  obtain ⟨hk, e1⟩ := List.getElem?_eq_some_iff.1 hkx
  obtain ⟨hk', e2⟩ := List.getElem?_eq_some_iff.1 hky
  obtain ⟨o, ho, hf⟩ := h2 k hk
  refine ⟨o, ho, ?_⟩
  rw [e1, e2] at hf
  have key : ∀ α p q ξ η, disp S f.panel 0 (fun k => c (3 * B.skin.m * B.skin.n + k)) α p q ξ η
      = disp S f.panel (C52.start B.toBay 0) c α p q ξ η := by
    intro α p q ξ η
    unfold disp
    rw [C52.start_zero]
    simp only [zero_add, Nat.add_assoc]
  simp only [key] at hf
  exact hf

/-- A later stiffener has no displacements. -/
theorem later_fails {S : Shape K} {B : OutBay K} {len : ℕ} {c : ℕ → K} {si : ℕ} (h0 : 0 < si)
    {region : String} {xs ys : Option (Arr K)} {gridx gridy cores : ℕ} (x : List ℕ × List (UVW K)) :
    B.uvwStiffener S len c si region xs ys gridx gridy cores ≠ .ok x := by
  intro h
  obtain ⟨i, s, f, d, -, -, -, -, rfl, -⟩ := flange_ok h
  exact absurd h0 (lt_irrefl _)

/-- A bay with a beam and two flanges. -/
def bay (flangeFirst : Bool) : Except Fail (OutBay ℚ) := do
  let B : Bay ℚ := { C46.bay with skin := { Witness.panel with m := 1, n := 2 } }
  let B := B.addPanel 0 (1 / 2) none none none none none none none
  let B := B.addPanel (1 / 2) 1 none none none none none none none
  let B ← B.rebuild C52.env
  let O : OutBay ℚ := ⟨B, [], []⟩
  let flange (O : OutBay ℚ) := O.addBlade2 C52.env (1 / 2) none none (some (1 / 3)) {} C52.ply 1 2
  let O ← if flangeFirst then flange O
    else O.addBlade1 C52.env (1 / 2) none (some (1 / 2)) (some (1 / 3)) C52.ply C52.ply
  flange O

theorem listed_empty {B : OutBay K} (h1 : B.stiffeners = []) (h2 : B.blade2 = []) : Listed B := by
  unfold Listed
  rw [h1, h2]
  rfl

theorem bay_listed {b : Bool} {B : OutBay ℚ} (h : bay b = .ok B) : Listed B := by
  unfold bay at h
  obtain ⟨R, hR, h⟩ := bind_ok.1 h
  have h0 : Listed (⟨R, [], []⟩ : OutBay ℚ) := by
    refine listed_empty rfl ?_
    obtain ⟨m, ps, -, -, -, -, -, -, h2⟩ := bay_rebuild_ok hR
    cases hb : R.blade2 with
    | nil => rfl
    | cons x l => rw [hb] at h2; cases h2
  cases b
  · obtain ⟨O, hO, h⟩ := bind_ok.1 h
    exact listed_add2 (listed_add1 h0 hO) h
  · obtain ⟨O, hO, h⟩ := bind_ok.1 h
    exact listed_add2 (listed_add2 h0 hO) h

/-- The flange added first has displacements, the second, or one after a beam, has not, whatever the
vector. -/
theorem claim_violated : (∃ B, bay true = .ok B ∧ Listed B ∧ B.getSize = .ok 18 ∧
      B.stiffeners = [.two 0, .two 1] ∧
      (∃ o, B.uvwStiffener (bardellShape ℚ) 18 (fun k => k) 0 "flange" none none 3 2 2 = .ok o) ∧
      ∀ x, B.uvwStiffener (bardellShape ℚ) 18 (fun k => k) 1 "flange" none none 3 2 2 ≠ .ok x) ∧
    ∃ B, bay false = .ok B ∧ Listed B ∧ B.getSize = .ok 12 ∧ B.stiffeners = [.one 0, .two 0] ∧
      ∀ x, B.uvwStiffener (bardellShape ℚ) 12 (fun k => k) 1 "flange" none none 3 2 2 ≠ .ok x := by
  constructor
  · have e : (bay true).toOption.map (fun B => decide (B.getSize = .ok 18) &&
        decide (B.stiffeners = [.two 0, .two 1]) &&
        (B.uvwStiffener (bardellShape ℚ) 18 (fun k => k) 0 "flange" none none 3 2 2).isOk)
        = some true := by decide +kernel
    cases hB : bay true with
    | error x => rw [hB] at e; cases e
    | ok B =>
      rw [hB] at e
      simp only [Except.toOption, Option.map_some, Option.some.injEq, Bool.and_eq_true,
        decide_eq_true_eq] at e
      exact ⟨B, rfl, bay_listed hB, e.1.1, e.1.2, exists_ok e.2, later_fails (by decide)⟩
  · have e : (bay false).toOption.map (fun B => decide (B.getSize = .ok 12) &&
        decide (B.stiffeners = [.one 0, .two 0])) = some true := by decide +kernel
    cases hB : bay false with
    | error x => rw [hB] at e; cases e
    | ok B =>
      rw [hB] at e
      simp only [Except.toOption, Option.map_some, Option.some.injEq, Bool.and_eq_true,
        decide_eq_true_eq] at e
      exact ⟨B, rfl, bay_listed hB, e.1, e.2, later_fails (by decide)⟩

/-- Points in both ways that are allowed. -/
example : ∃ B : OutBay ℚ, B.getSize = .ok 18 ∧
    (∃ o, B.uvwSkin (bardellShape ℚ) 18 (fun k => k) none none 3 2 2 = .ok o) ∧
    ∃ o, B.uvwSkin (bardellShape ℚ) 18 (fun k => k) (some ⟨[3], [0, 1, 2]⟩)
      (some ⟨[3], [0, 0, 1 / 2]⟩) 3 2 2 = .ok o := by
  obtain ⟨⟨B, -, -, hn, -⟩, -⟩ := claim_violated
  exact ⟨B, hn, skin_exists hn (.inl (.inl rfl)), skin_exists hn (.inr ⟨_, _, 3, rfl, rfl, rfl, rfl⟩)⟩

example : Sound (some (⟨[3], [0, 1, 2]⟩ : Arr ℚ)) := by
  intro X h
  cases h
  rfl

end Verif.C62

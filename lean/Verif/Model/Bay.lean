import Verif.Model.Multi
import Verif.Model.Stiff

/-!
# The class `StiffPanelBay` and its stiffeners

`panels/stiffpanelbay/stiffpanelbay.py`, `panels/stiffener/bladestiff1d.py`,
`panels/stiffener/bladestiff2d.py`.  The skin panels are kept in the list of the bay, and a stiffener
refers to them by position, since it reads (and `calc_kt_kr` rebuilds) the same objects.
Not modelled: `tstiff2ds` (no class for its members exists and nothing fills it), the keyword
arguments copied onto new objects, `kC`, `kG`, `kM` kept as attributes, plots, `a` and `b` being
`None`.  `plyts` of a panel of a bay is `[]`, not `None`, when not given, so its sum is `0`.
-/

namespace Verif.Model

variable {K : Type} [Field K] [LinearOrder K]

/-- What is read of a ply of `laminated_plate(…)`: `h`, `q11L`, `q12L`, `q16L`, `q22L`. -/
structure Ply (K : Type*) where
  h : K
  q11 : K
  q12 : K
  q16 : K
  q22 : K

/-- Surroundings, with the plies of a laminate (package `composites`). -/
structure BayEnv (K : Type*) extends Env K where
  plies : List K → List K → List (List K) → Except Err (List (Ply K))

/-- `Shell(…)` with the defaults of `panels/shell.py` lines 94-224. -/
def Shell.new (pan : Panel K) (r : Option K) (model : Option String) (stack : List K)
    (plyt : Option K) (plyts : List K) (laminaprop : List K) (laminaprops : List (List K))
    (rho offset : K) : Shell K where
  pan := pan
  r := r
  model := model
  nx := 2 * pan.m
  ny := 2 * pan.n
  stack := stack
  plyt := plyt
  plyts := plyts
  laminaprop := laminaprop
  laminaprops := laminaprops
  rho := rho
  rhos := []
  offset := offset
  lam := none
  ABD := none
  forceOrtho := false
  size := none
  Nxx := 0
  Nyy := 0
  Nxy := 0
  NxxCte := 0
  NyyCte := 0
  NxyCte := 0
  flow := "x"
  beta := none
  gamma := none
  rhoAir := none
  Mach := none
  V := none

/-- Section of the 1D flange: `hf`, `E1`, `F1`, `S1` (`bladestiff1d.py` lines 68-114). -/
structure Section (K : Type*) where
  hf : K
  E1 : K
  F1 : K
  S1 : K

/-- A `BladeStiff1D` (`bladestiff1d.py` lines 29-59); `sec` is `none` exactly when `flam` is `None`. -/
structure Blade1 (K : Type*) where
  panel1 : ℕ
  panel2 : ℕ
  rho : K
  ys : K
  bb : Option K
  bf : Option K
  bstack : Option (List K)
  bplyts : List K
  blaminaprops : List (List K)
  fstack : Option (List K)
  fplyts : List K
  flaminaprops : List (List K)
  Fx : Option K
  base : Option (Shell K)
  sec : Option (Section K)
  dbf : K
  Jxx : K

/-- A `BladeStiff2D` (`bladestiff2d.py` lines 31-78). -/
structure Blade2 (K : Type*) where
  panel1 : ℕ
  panel2 : ℕ
  rho : K
  ys : K
  bstack : List K
  bplyts : List K
  blaminaprops : List (List K)
  base : Option (Shell K)
  flange : Option (Shell K)

/-- A `StiffPanelBay` (`stiffpanelbay.py` lines 41-119).  `skin` holds `a`, `b`, `m`, `n` and the edge
flags. -/
structure Bay (K : Type*) where
  skin : Panel K
  r : Option K
  model : Option String
  stack : List K
  plyt : Option K
  plyts : List K
  laminaprop : List K
  laminaprops : List (List K)
  rho : K
  beta : Option K
  Mach : Option K
  V : Option K
  rhoAir : Option K
  speedSound : Option K
  panels : List (Shell K)
  blade1 : List (Blade1 K)
  blade2 : List (Blade2 K)

/-- `StiffPanelBay.add_panel` (lines 459-515); `None` means the value of the bay. -/
def Bay.addPanel (B : Bay K) (y1 y2 : K) (stack : Option (List K)) (plyts : Option (List K))
    (plyt : Option K) (laminaprops : Option (List (List K))) (laminaprop : Option (List K))
    (model : Option String) (rho : Option K) : Bay K :=
  { B with panels := B.panels ++ [Shell.new { B.skin with x1 := -1, x2 := 1, y1 := y1, y2 := y2 } B.r
      (match model with
        | some m => some m
        | none => B.model)
      (stack.getD B.stack)
      (match plyt with
        | some t => some t
        | none => B.plyt)
      (plyts.getD B.plyts) (laminaprop.getD B.laminaprop) (laminaprops.getD B.laminaprops)
      (rho.getD B.rho) 0] }

/-- `np.isclose(x, y)` with its default tolerances. -/
def isclose (x y : K) : Bool := decide (|x - y| ≤ 1 / 100000000 + 1 / 100000 * |y|)

/-- One pass of the loop that finds `panel1` and `panel2` (`stiffpanelbay.py` lines 313-323 and
430-440; the two methods have the same text). -/
def findStep (ys b : K) (st : Option ℕ × Option ℕ) (i : ℕ) (p : Shell K) : Option ℕ × Option ℕ :=
  let st := if p.pan.y2 = ys then (some i, st.2) else st
  let st := if p.pan.y1 = ys then (st.1, some i) else st
  let st := if isclose ys 0 && isclose p.pan.y1 ys then (some i, some i) else st
  if isclose ys b && isclose p.pan.y2 ys then (some i, some i) else st

/-- The loop, from position `i` on. -/
def findLoop (ys b : K) : ℕ → List (Shell K) → Option ℕ × Option ℕ → Option ℕ × Option ℕ
  | _, [], st => st
  | i, p :: ps, st => findLoop ys b (i + 1) ps (findStep ys b st i p)

/-- Choice of the two panels (lines 306-326 and 423-443). -/
def Bay.findPanels (B : Bay K) (ys : K) : Except Fail (ℕ × ℕ) :=
  if B.panels.isEmpty then .error (.raised .runtimeError)
  else match findLoop ys B.skin.b 0 B.panels (none, none) with
    | (some i, some j) => .ok (i, j)
    | _ => .error (.raised .runtimeError)

/-- The panels of a stiffener, which must agree (`bladestiff1d.py` lines 63-66, `bladestiff2d.py`
lines 82-85).  Positions outside the list do not occur. -/
def Bay.pair (B : Bay K) (i j : ℕ) : Except Fail (Shell K × Shell K) :=
  match B.panels[i]?, B.panels[j]? with
  | some p, some q =>
    if p.model = q.model ∧ p.pan.m = q.pan.m ∧ p.pan.n = q.pan.n ∧ p.r = q.r then .ok (p, q)
    else .error (.raised .assertionError)
  | _, _ => .error .undef

/-- `0.5*sum(panel1.plyts) + 0.5*sum(panel2.plyts)`. -/
def skinThick (p q : Shell K) : K := 1 / 2 * p.plyts.sum + 1 / 2 * q.plyts.sum

/-- `Shell(a=bay.a, b=bay.b, …, y1=y1, y2=y2)`, the base of a stiffener (`bladestiff1d.py` lines 79-91,
`bladestiff2d.py` lines 50-64).  No model is given. -/
def Bay.newBase (B : Bay K) (ys bb rho : K) (stack plyts : List K) (laminaprops : List (List K))
    (h : K) : Shell K :=
  Shell.new { B.skin with x1 := -1, x2 := 1, y1 := ys - bb / 2, y2 := ys + bb / 2 } B.r none stack none
    plyts [] laminaprops rho (-h / 2 - plyts.sum / 2)

/-- The loop over the plies of the flange (`bladestiff1d.py` lines 104-112), after the first ply;
`y` and `t` are the position and thickness of the ply before. -/
def plyLoop : K → K → List (Ply K) → K × K → K × K
  | _, _, [], es => es
  | y, t, p :: ps, es =>
    let y := y + (t / 2 + p.h / 2)
    plyLoop y p.h ps (es.1 + p.h * (p.q11 - p.q12 ^ 2 / p.q22),
      es.2 + -y * p.h * (p.q16 - p.q12 * p.q16 / p.q22))

/-- `E1` and `S1`; `plies[0]` of an empty laminate is an `IndexError`. -/
def plySums : List (Ply K) → Except Fail (K × K)
  | [] => .error (.raised .indexError)
  | p :: ps =>
    let y := p.h / 2
    .ok (plyLoop y p.h ps (0 + p.h * (p.q11 - p.q12 ^ 2 / p.q22),
      0 + -y * p.h * (p.q16 - p.q12 * p.q16 / p.q22)))

/-- The laminate of the flange (`bladestiff1d.py` lines 68-72); `bf` is needed for `Asf`. -/
def Blade1.flangePlies (E : BayEnv K) (s : Blade1 K) : Except Fail (Option (List (Ply K))) :=
  match s.fstack with
  | none => .ok none
  | some st => do
    let _ ← number s.bf
    let l ← lift (E.plies st s.fplyts s.flaminaprops)
    return some l

/-- The base and its thickness `hb` (`bladestiff1d.py` lines 75-92): made anew at every call. -/
def Blade1.freshBase (B : Bay K) (s : Blade1 K) (h : K) : Except Fail (Option (Shell K) × K) :=
  match s.bstack with
  | none => .ok (s.base, 0)
  | some st => do
    let bb ← number s.bb
    return (some (B.newBase s.ys bb s.rho st s.bplyts s.blaminaprops h), s.bplyts.sum)

/-- `self.hf`: it is set for a given stack and starts as `0`. -/
def Blade1.hf (s : Blade1 K) : K :=
  match s.fstack with
  | none => 0
  | some _ => s.fplyts.sum

/-- The constants of the flange (`bladestiff1d.py` lines 103-114). -/
def sectionOf (hf bf : K) : Option (List (Ply K)) → Except Fail (Option (Section K))
  | none => .ok none
  | some l => do
    let (e, f) ← plySums l
    return some ⟨hf, e, bf ^ 2 / 12 * e, f⟩

/-- `BladeStiff1D._rebuild` (`bladestiff1d.py` lines 62-114). -/
def Blade1.rebuild (E : BayEnv K) (B : Bay K) (s : Blade1 K) : Except Fail (Blade1 K) := do
  let pq ← B.pair s.panel1 s.panel2
  let plies ← s.flangePlies E
  let base ← s.freshBase B (skinThick pq.1 pq.2)
  let bf ← number s.bf
  let sec ← sectionOf s.hf bf plies
  return { s with
    base := base.1
    sec := sec
    dbf := bf / 2 + base.2 + skinThick pq.1 pq.2 / 2
    Jxx := s.hf * bf ^ 3 / 12 + bf * s.hf ^ 3 / 12 }

/-- The contribution of an optional base or flange. -/
def optPart (f : Shell K → Except Fail (Coo K × Shell K)) :
    Option (Shell K) → Except Fail (Coo K × Option (Shell K))
  | none => .ok ([], none)
  | some sh => do
    let (L, sh) ← f sh
    return (L, some sh)

/-- `fkCf` if there is a flange (`bladestiff1d.py` lines 127-138). -/
def Blade1.partC (E : BayEnv K) (B : Bay K) (size row0 col0 : ℕ) (s : Blade1 K) :
    Except Fail (Coo K) :=
  match s.sec with
  | none => .ok []
  | some c => do
    let bf ← number s.bf
    toSparse size (fkCf E.S E.I B.skin s.ys bf s.dbf c.E1 c.F1 c.S1 s.Jxx row0 col0)

/-- `BladeStiff1D.calc_kC` (`bladestiff1d.py` lines 117-147), as called by the bay. -/
def Blade1.calcKC (E : BayEnv K) (B : Bay K) (size row0 col0 : ℕ) (s : Blade1 K) :
    Except Fail (Coo K × Blade1 K) := do
  let s ← s.rebuild E B
  let (L, base) ← optPart (fun sh => sh.calcKC E.toEnv
    { size := .num size, row0 := row0, col0 := col0, finalize := false }) s.base
  let Lf ← s.partC E B size row0 col0
  return (L ++ Lf, { s with base := base })

/-- `fkGf` if there is a flange (`bladestiff1d.py` lines 167-174). -/
def Blade1.partG (E : BayEnv K) (B : Bay K) (size row0 col0 : ℕ) (s : Blade1 K) :
    Except Fail (Coo K) :=
  match s.sec with
  | none => .ok []
  | some _ => toSparse size (fkGf E.S E.I B.skin s.ys (s.Fx.getD 0) row0 col0)

/-- `BladeStiff1D.calc_kG` (`bladestiff1d.py` lines 150-184), as called by the bay. -/
def Blade1.calcKG (E : BayEnv K) (B : Bay K) (size row0 col0 : ℕ) (c : Option (CArg K))
    (s : Blade1 K) : Except Fail (Coo K × Blade1 K) :=
  if c.isSome then .error (.raised .notImplemented)
  else do
    let s ← s.rebuild E B
    let L ← s.partG E B size row0 col0
    return (L, s)

/-- `fkMf` if there is a flange (`bladestiff1d.py` lines 198-210).  The attribute `hb` stays `0`
(line 38). -/
def Blade1.partM (E : BayEnv K) (B : Bay K) (size row0 col0 : ℕ) (s : Blade1 K) :
    Except Fail (Coo K) :=
  match s.sec with
  | none => .ok []
  | some c => do
    let pq ← B.pair s.panel1 s.panel2
    let bf ← number s.bf
    toSparse size (fkMf E.S E.I B.skin s.ys s.rho (skinThick pq.1 pq.2) 0 c.hf bf s.dbf row0 col0)

/-- `BladeStiff1D.calc_kM` (`bladestiff1d.py` lines 187-221), as called by the bay. -/
def Blade1.calcKM (E : BayEnv K) (B : Bay K) (size row0 col0 : ℕ) (s : Blade1 K) :
    Except Fail (Coo K × Blade1 K) := do
  let s ← s.rebuild E B
  let (L, base) ← optPart (fun sh =>
    sh.calcKM E.toEnv (.num size) row0 col0 none none none none false) s.base
  let Lf ← s.partM E B size row0 col0
  return (L ++ Lf, { s with base := base })

/-- Replace the laminate of an optional part. -/
def optLam (l : Shell K → Except Err (LamObj K)) : Option (Shell K) → Except Fail (Option (Shell K))
  | none => .ok none
  | some f => do
    let l ← lift (l f)
    return some { f with lam := some l }

/-- `BladeStiff2D._rebuild` (`bladestiff2d.py` lines 81-98).  The laminates are calculated without
densities; the offset of the object `base` is not touched. -/
def Blade2.rebuild (E : BayEnv K) (B : Bay K) (s : Blade2 K) : Except Fail (Blade2 K) := do
  let pq ← B.pair s.panel1 s.panel2
  let flange ← optLam (fun f => E.mkLam f.stack f.plyts f.laminaprops [] 0) s.flange
  let base ← optLam (fun _ => E.mkLam s.bstack s.bplyts s.blaminaprops []
    (-skinThick pq.1 pq.2 / 2 - s.bplyts.sum / 2)) s.base
  return { s with flange := flange, base := base }

/-- `calc_kt_kr(p1, p2, 'ycte')`: both are rebuilt. -/
def ktkrY (E : Env K) (p1 p2 : Shell K) : Except Fail ((K × K) × Shell K × Shell K) := do
  let p1 ← p1.rebuild E
  let p2 ← p2.rebuild E
  match p1.lam, p2.lam with
  | some l1, some l2 =>
    match calcKtKr (penOf p1 l1) (penOf p2 l2) "ycte" with
    | some (kt, some kr) => .ok ((kt, kr), p1, p2)
    | _ => .error (.raised .typeError)
  | _, _ => .error (.raised .attributeError)

/-- Store a skin panel. -/
def Bay.setPanel (B : Bay K) (i : ℕ) (p : Shell K) : Bay K := { B with panels := B.panels.set i p }

/-- The penalty constants between the base, or the first panel, and the flange
(`bladestiff2d.py` lines 121-125): constants, base, flange and bay afterwards. -/
def Blade2.ktkr (E : BayEnv K) (B : Bay K) (s : Blade2 K) (base : Option (Shell K)) (f : Shell K) :
    Except Fail ((K × K) × Option (Shell K) × Shell K × Bay K) :=
  match base with
  | none => do
    let pq ← B.pair s.panel1 s.panel2
    let (k, p, f) ← ktkrY E.toEnv pq.1 f
    return (k, none, f, B.setPanel s.panel1 p)
  | some sh => do
    let (k, sh, f) ← ktkrY E.toEnv sh f
    return (k, some sh, f, B)

/-- The flange and its connection (`bladestiff2d.py` lines 117-158). -/
def Blade2.flangeC (E : BayEnv K) (B : Bay K) (size off : ℕ) (s : Blade2 K) (base : Option (Shell K)) :
    Except Fail (Coo K × Blade2 K × Bay K) :=
  match s.flange with
  | none => return ([], { s with base := base }, B)
  | some f => do
    let (Lf, f) ← f.calcKC E.toEnv { size := .num size, row0 := off, col0 := off, finalize := false }
    let (k, base, f, B) ← s.ktkr E B base f
    let Lc ← toSparse size (bladeConn E.S E.I B.skin f.panel k.1 k.2 s.ys 0 off)
    return (Lf ++ Lc, { s with base := base, flange := some f }, B)

/-- `BladeStiff2D.calc_kC` (`bladestiff2d.py` lines 101-169), as called by the bay with
`row0 = col0`. -/
def Blade2.calcKC (E : BayEnv K) (B : Bay K) (size off : ℕ) (s : Blade2 K) :
    Except Fail (Coo K × Blade2 K × Bay K) := do
  let s ← s.rebuild E B
  let (L, base) ← optPart (fun sh => sh.calcKC E.toEnv { size := .num size, finalize := false }) s.base
  let (Lf, s, B) ← s.flangeC E B size off base
  return (L ++ Lf, s, B)

/-- `BladeStiff2D.calc_kG` (`bladestiff2d.py` lines 172-196), as called by the bay: `c` is not handed
on, and the base has no part. -/
def Blade2.calcKG (E : BayEnv K) (B : Bay K) (size off : ℕ) (s : Blade2 K) :
    Except Fail (Coo K × Blade2 K × Bay K) := do
  let s ← s.rebuild E B
  let (Lf, f) ← optPart (fun f => f.calcKG E.toEnv
    { size := .num size, row0 := off, col0 := off, finalize := false }) s.flange
  return (Lf, { s with flange := f }, B)

/-- `BladeStiff2D.calc_kM` (`bladestiff2d.py` lines 199-221), as called by the bay. -/
def Blade2.calcKM (E : BayEnv K) (B : Bay K) (size off : ℕ) (s : Blade2 K) :
    Except Fail (Coo K × Blade2 K × Bay K) := do
  let s ← s.rebuild E B
  let (L, base) ← optPart (fun sh => sh.calcKM E.toEnv (.num size) 0 0 none none none none false) s.base
  let (Lf, f) ← optPart (fun f => f.calcKM E.toEnv (.num size) off off none none none none false)
    s.flange
  return (L ++ Lf, { s with base := base, flange := f }, B)

/-- What is given of a laminate to `add_bladestiff1d` and `add_bladestiff2d`. -/
structure LamArgs (K : Type*) where
  stack : Option (List K) := none
  plyts : Option (List K) := none
  plyt : Option K := none
  laminaprops : Option (List (List K)) := none
  laminaprop : Option (List K) := none

/-- Lists of thicknesses and properties of a given stack (lines 282-304, 399-421). -/
def LamArgs.resolve (A : LamArgs K) : Except Fail (Option (List K) × List K × List (List K)) :=
  match A.stack with
  | none => .ok (none, A.plyts.getD [], A.laminaprops.getD [])
  | some st =>
    match A.plyts, A.plyt, A.laminaprops, A.laminaprop with
    | none, none, _, _ => .error (.raised .valueError)
    | _, _, none, none => .error (.raised .valueError)
    | ts, t, ps, p =>
      .ok (some st, ts.getD (st.map fun _ => t.getD 0), ps.getD (st.map fun _ => p.getD []))

/-- `StiffPanelBay.add_bladestiff1d` (lines 229-339). -/
def Bay.addBlade1 (E : BayEnv K) (B : Bay K) (ys : K) (rho bb bf : Option K) (base flange : LamArgs K) :
    Except Fail (Bay K) :=
  if base.stack.isNone && flange.stack.isNone then .error (.raised .valueError)
  else do
    let b ← base.resolve
    let f ← flange.resolve
    let ij ← B.findPanels ys
    let s ← Blade1.rebuild E B
      { panel1 := ij.1, panel2 := ij.2, rho := rho.getD B.rho, ys := ys, bb := bb, bf := bf,
        bstack := b.1, bplyts := b.2.1, blaminaprops := b.2.2, fstack := f.1, fplyts := f.2.1,
        flaminaprops := f.2.2, Fx := none, base := none, sec := none, dbf := 0, Jxx := 0 }
    return { B with blade1 := B.blade1 ++ [s] }

/-- The base made by `BladeStiff2D.__init__` (`bladestiff2d.py` lines 49-64), with the thicknesses that
the panels have at that moment. -/
def Bay.baseOf (B : Bay K) (ij : ℕ × ℕ) (ys : K) (bb : Option K) (rho : K)
    (b : Option (List K) × List K × List (List K)) : Except Fail (Option (Shell K)) :=
  match b.1 with
  | none => .ok none
  | some st => do
    let bb ← number bb
    match B.panels[ij.1]?, B.panels[ij.2]? with
    | some p, some q => .ok (some (B.newBase ys bb rho st b.2.1 b.2.2 (skinThick p q)))
    | _, _ => .error .undef

/-- The flange made by `BladeStiff2D.__init__` (`bladestiff2d.py` lines 66-76). -/
def Bay.newFlange (B : Bay K) (mf nf : ℕ) (bf rho : K) (stack plyts : List K)
    (laminaprops : List (List K)) : Shell K :=
  Shell.new
    { a := B.skin.a, b := bf, r := 0, m := mf, n := nf, x1 := -1, x2 := 1, y1 := -1, y2 := 1,
      xu := ⟨0, 0, 0, 0⟩, xv := ⟨0, 0, 0, 0⟩, xw := ⟨0, 1, 0, 1⟩,
      yu := ⟨1, 0, 1, 0⟩, yv := ⟨1, 0, 1, 0⟩, yw := ⟨1, 1, 1, 1⟩ }
    none (some "plate_clpt_donnell_bardell") stack none plyts [] laminaprops rho 0

/-- The same, if a stack is given.  A flange without `bf` would be kept with `b = None`; here it is a
`TypeError` at once. -/
def Bay.flangeOf (B : Bay K) (mf nf : ℕ) (bf : Option K) (rho : K)
    (f : Option (List K) × List K × List (List K)) : Except Fail (Option (Shell K)) :=
  match f.1 with
  | none => .ok none
  | some st => do
    let bf ← number bf
    return some (B.newFlange mf nf bf rho st f.2.1 f.2.2)

/-- `StiffPanelBay.add_bladestiff2d` (lines 342-456) and `BladeStiff2D.__init__`
(`bladestiff2d.py` lines 31-78). -/
def Bay.addBlade2 (E : BayEnv K) (B : Bay K) (ys : K) (rho bb bf : Option K) (base flange : LamArgs K)
    (mf nf : ℕ) : Except Fail (Bay K) :=
  if base.stack.isNone && flange.stack.isNone then .error (.raised .valueError)
  else do
    let b ← base.resolve
    let f ← flange.resolve
    let ij ← B.findPanels ys
    let base ← B.baseOf ij ys bb (rho.getD B.rho) b
    let flange ← B.flangeOf mf nf bf (rho.getD B.rho) f
    let s ← Blade2.rebuild E B
      { panel1 := ij.1, panel2 := ij.2, rho := rho.getD B.rho, ys := ys, bstack := b.1.getD [],
        bplyts := b.2.1, blaminaprops := b.2.2, base := base, flange := flange }
    return { B with blade2 := B.blade2 ++ [s] }

/-- The panels in `StiffPanelBay._rebuild` (lines 164-169). -/
def rebuildPanels (E : Env K) : Option String → List (Shell K) →
    Except Fail (Option String × List (Shell K))
  | m, [] => .ok (m, [])
  | m, p :: ps => do
    let p ← p.rebuild E
    match m with
    | some _ => if m ≠ p.model then .error (.raised .assertionError) else
        let (m, ps) ← rebuildPanels E m ps
        return (m, p :: ps)
    | none =>
      let (m, ps) ← rebuildPanels E p.model ps
      return (m, p :: ps)

/-- `for s in …: s._rebuild()`. -/
def mapE {α β : Type} (f : α → Except Fail β) : List α → Except Fail (List β)
  | [] => .ok []
  | a :: l => do
    let b ← f a
    let bs ← mapE f l
    return b :: bs

/-- `StiffPanelBay._rebuild` (lines 157-178). -/
def Bay.rebuild (E : BayEnv K) (B : Bay K) : Except Fail (Bay K) := do
  let (m, ps) ← rebuildPanels E.toEnv B.model B.panels
  let B := { B with model := m, panels := ps }
  let b1 ← mapE (Blade1.rebuild E B) B.blade1
  let B := { B with blade1 := b1 }
  let b2 ← mapE (Blade2.rebuild E B) B.blade2
  return { B with blade2 := b2 }

/-- Sizes of the flanges; a stiffener without flange has none to ask. -/
def flangeSizes : List (Blade2 K) → Except Fail ℕ
  | [] => .ok 0
  | s :: l =>
    match s.flange with
    | none => .error (.raised .attributeError)
    | some f => do
      let d ← f.getSize
      let n ← flangeSizes l
      return d + n

/-- `panelmDB.db[self.model]['dofs']*m*n`. -/
def Bay.skinSize (B : Bay K) : Except Fail ℕ :=
  match B.model.bind kindOf with
  | none => .error .keyError
  | some _ => .ok (3 * B.skin.m * B.skin.n)

/-- `StiffPanelBay.get_size` (lines 200-226). -/
def Bay.getSize (B : Bay K) : Except Fail ℕ := do
  let d ← B.skinSize
  let n ← flangeSizes B.blade2
  return d + n

/-- A loop over objects, adding up the matrices and keeping the objects. -/
def sumLoop {α : Type} (f : α → Except Fail (Coo K × α)) : List α → Except Fail (Coo K × List α)
  | [] => .ok ([], [])
  | a :: l => do
    let (L, a) ← f a
    let (R, l) ← sumLoop f l
    return (L ++ R, a :: l)

/-- What the offset grows by: `flange.get_size()` if there is a flange. -/
def flangeSize (s : Blade2 K) : Except Fail ℕ :=
  match s.flange with
  | none => .ok 0
  | some g => g.getSize

/-- The loop over the 2D stiffeners with its running offset (lines 542-551, 601-610, 662-671). -/
def blade2Loop (f : Bay K → ℕ → Blade2 K → Except Fail (Coo K × Blade2 K × Bay K)) :
    Bay K → ℕ → List (Blade2 K) → Except Fail (Coo K × List (Blade2 K) × Bay K)
  | B, _, [] => .ok ([], [], B)
  | B, off, s :: l => do
    let (L, s, B) ← f B off s
    let d ← flangeSize s
    let (R, l, B) ← blade2Loop f B (off + d) l
    return (L ++ R, s :: l, B)

/-- The common text of `calc_kC`, `calc_kG`, `calc_kM` (lines 518-573, 576-633, 636-693). -/
def Bay.assemble (E : BayEnv K) (B : Bay K) (fp : ℕ → Shell K → Except Fail (Coo K × Shell K))
    (f1 : Bay K → ℕ → Blade1 K → Except Fail (Coo K × Blade1 K))
    (f2 : ℕ → Bay K → ℕ → Blade2 K → Except Fail (Coo K × Blade2 K × Bay K)) :
    Except Fail (Coo K × Bay K) := do
  let B ← B.rebuild E
  let size ← B.getSize
  let (Lp, ps) ← sumLoop (fp size) B.panels
  let B := { B with panels := ps }
  let (L1, b1) ← sumLoop (f1 B size) B.blade1
  let B := { B with blade1 := b1 }
  let off ← B.skinSize
  let (L2, b2, B) ← blade2Loop (f2 size) B off B.blade2
  let B := { B with blade2 := b2 }
  let k ← finSum B.panels true (Lp ++ L1 ++ L2)
  return (k, B)

/-- `StiffPanelBay.calc_kC` (lines 518-573). -/
def Bay.calcKC (E : BayEnv K) (B : Bay K) : Except Fail (Coo K × Bay K) :=
  B.assemble E (fun size s => s.calcKC E.toEnv { size := .num size, finalize := false })
    (fun B size => Blade1.calcKC E B size 0 0) (fun size B off => Blade2.calcKC E B size off)

/-- `StiffPanelBay.calc_kG` (lines 576-633). -/
def Bay.calcKG (E : BayEnv K) (B : Bay K) (c : Option (CArg K)) : Except Fail (Coo K × Bay K) :=
  B.assemble E (fun size s => s.calcKG E.toEnv { size := .num size, finalize := false, c := c })
    (fun B size => Blade1.calcKG E B size 0 0 c) (fun size B off => Blade2.calcKG E B size off)

/-- `StiffPanelBay.calc_kM` (lines 636-693). -/
def Bay.calcKM (E : BayEnv K) (B : Bay K) : Except Fail (Coo K × Bay K) :=
  B.assemble E (fun size s => s.calcKM E.toEnv (.num size) 0 0 none none none none false)
    (fun B size => Blade1.calcKM E B size 0 0) (fun size B off => Blade2.calcKM E B size off)

/-- Parameters of `Shell.calc_cA` (`panels/shell.py` line 684). -/
def cAparams : List String := ["self", "aeromu", "silent", "size", "finalize"]

/-- Functions defined in the modules under the key `matrices_num`
(`plate_clpt_donnell_bardell_num.pyx`, `cylshell_clpt_donnell_bardell_num.pyx`). -/
def numNames : Kind → List String
  | .plate => ["fkC_num", "fkG_num", "fkM_num", "fkAx_num", "fkAy_num", "calc_fint"]
  | .cyl => ["fkC_num", "fkG_num", "fkM_num", "fkAx_num", "fkAy_num", "calc_fint"]

/-- `Shell.calc_cA` (`panels/shell.py` lines 684-702) up to `matrices_num.fcA`; were the attribute
there, its matrix would be that of the analytical module.  The factor `0+1j` is not modelled. -/
def Shell.calcCA (E : Env K) (s : Shell K) (aeromu : K) (size : Option ℕ) (finalize : Bool := true) :
    Except Fail (Coo K) := do
  let size ← match size with
    | some n => .ok n
    | none => s.getSize
  let k ← match s.model.bind kindOf with
    | none => .error .keyError
    | some k => .ok k
  if (numNames k).contains "fcA" then
    let L ← toSparse size (match k with
      | .plate => plateFcA E.I s.panel aeromu 0 0
      | .cyl => cylFcA E.I s.panel aeromu 0 0)
    return fin finalize L
  else .error (.raised .attributeError)

/-- The flight condition in `StiffPanelBay.calc_cA` (lines 768-781): the numbers that must be given.
The values calculated from them are not used. -/
def Bay.aeroChecks (B : Bay K) : Except Fail Unit :=
  match B.beta with
  | some _ => .ok ()
  | none => do
    let M ← number B.Mach
    if M < 1 then .error (.raised .valueError)
    else
      let _ ← number B.rhoAir
      let _ ← number B.V
      let _ ← number B.r
      let _ ← number B.speedSound
      .ok ()

/-- `StiffPanelBay.calc_cA` (lines 758-799): `p.calc_cA(size=size, row0=0, col0=0, silent=silent)`
leaves out `aeromu` and gives names that do not exist. -/
def Bay.calcCA (E : BayEnv K) (B : Bay K) : Except Fail (Coo K × Bay K) := do
  let B ← B.rebuild E
  let size ← B.getSize
  B.aeroChecks
  match B.panels with
  | [] => .error (.raised .indexError)
  | p :: _ =>
    bindArgs cAparams ["size", "row0", "col0", "silent"]
    let L ← p.calcCA E.toEnv 0 (some size)
    return (Coo.finalizeSym L, B)

end Verif.Model

import Verif.Model.Vec
import Mathlib.Analysis.SpecialFunctions.Complex.Arg
import Mathlib.Analysis.SpecialFunctions.Pow.Real

/-!
# `geometry/path.py`
-/

namespace HV

/-- A path object: its `__call__` and its (virtual) `length` method.  `path.py:7-16`. -/
structure PathObj where
  call : ℝ → Res V
  length : Res ℝ

namespace Path

/-- `path.py:23-26`: one iteration of the sampling loop; the state is `(length, p0)`. -/
noncomputable def lengthStep (call : ℝ → Res V) (dt : ℝ) (st : ℝ × V) (i : ℕ) : Res (ℝ × V) := do
  let p1 ← call (((i : ℝ) + 1) * dt)
  return (st.1 + (p1 - st.2).abs, p1)

/-- `path.py:18-27` `Path.length(n=20)`. -/
noncomputable def length (call : ℝ → Res V) (n : ℕ := 20) : Res ℝ := do
  let p0 ← call 0
  let dt ← pdiv 1 n
  let st ← (List.range n).foldlM (lengthStep call dt) (0, p0)
  return st.1

end Path

/-- `path.py:42-43` `Line.__call__`. -/
def lineAt (p0 p1 : V) (t : ℝ) : V := p0 * (1 - t) + p1 * t

/-- `path.py:30-46` `Line`. -/
noncomputable def Line (p0 p1 : V) : PathObj where
  call t := .ok (lineAt p0 p1 t)
  length := .ok (p1 - p0).abs

/-- `path.py:48-54` `Line.__add__`: a new line; the end points of the original are not touched. -/
noncomputable def Line.add (p0 p1 offset : V) : PathObj := Line (p0 + offset) (p1 + offset)

namespace Bezier

/-- `path.py:80-81`: the inner loop `for i in range(m): Q[i] = Q[i]*(1-t) + Q[i+1]*t`.
The work array `Q` is a function on indices; all indices used are in range. -/
def inner (t : ℝ) (m : ℕ) (Q : ℕ → V) : ℕ → V :=
  (List.range m).foldl (fun Q i => Function.update Q i (Q i * (1 - t) + Q (i + 1) * t)) Q

/-- `path.py:79-81`: both loops. -/
def work (t : ℝ) (n_order : ℕ) (Q : ℕ → V) : ℕ → V :=
  (List.range n_order).foldl (fun Q k => inner t (n_order - k) Q) Q

/-- `path.py:73-82` `Bezier.__call__`.  An empty control polygon fails at `Q[0]`. -/
def call (B : List V) (t : ℝ) : Res V :=
  match B with
  | [] => .error .index
  | [b] => .ok b
  | B => .ok (work t (B.length - 1) (fun i => B.getD i ⟨0, 0, 0⟩) 0)

end Bezier

/-- `path.py:57-82` `Bezier`; `length` is inherited from `Path`. -/
noncomputable def Bezier (B : List V) : PathObj where
  call := Bezier.call B
  length := Path.length (Bezier.call B)

namespace Polyline

/-- `path.py:103-107`: cumulative lengths `[0.0, ...]`. -/
noncomputable def cumLengths (segs : List PathObj) : Res (List ℝ) :=
  let rec go (acc : ℝ) : List PathObj → Res (List ℝ)
    | [] => .ok []
    | s :: r => do
      let l ← s.length
      let rest ← go (acc + l) r
      return (acc + l) :: rest
  do
    let rest ← go 0 segs
    return 0 :: rest

/-- `path.py:102-109` `reset_breakpoints`; a zero total length is a division by zero. -/
noncomputable def breakpoints (segs : List PathObj) : Res (List ℝ) := do
  let cum ← cumLengths segs
  let total := cum.getLastD 0
  if total = 0 then .error .zeroDiv else .ok (cum.map (· / total))

/-- The object state after `__init__`: its segments and break points. -/
structure State where
  segs : List PathObj
  tvals : List ℝ

/-- `path.py:90-100` `Polyline.__init__`.  With `closed` a line from the *first* point to the *last*
point is appended (line 99) when they are apart. -/
noncomputable def init (segments : List PathObj) (closed : Bool := false)
    (tolerance : ℝ := 1 / 10 ^ 10) : Res State := do
  let segs ←
    if closed then
      match segments.head?, segments.getLast? with
      | some s0, some s1 => do
        let p0 ← s0.call 0
        let p1 ← s1.call 1
        pure (if (p1 - p0).abs > tolerance then segments ++ [Line p0 p1] else segments)
      | _, _ => .error .index
    else pure segments
  let tv ← breakpoints segs
  return ⟨segs, tv⟩

/-- `path.py:129-134`: the test whether segment `i` of `n` is active at local parameter `tl`. -/
noncomputable def isokay (n i : ℕ) (t_local : ℝ) : Bool :=
  if i = 0 then decide (t_local ≤ 1)
  else if i = n - 1 then decide (t_local > 0)
  else decide (t_local > 0) && decide (t_local ≤ 1)

/-- Python `bool` as a number. -/
def boolNum (b : Bool) : ℝ := if b then 1 else 0

/-- `path.py:127-135`: the loop over the remaining segments, from index `i`, with accumulator `f`.
The list pairs each segment with its `tl`, `tu`. -/
noncomputable def loop (n : ℕ) (t : ℝ) : ℕ → V → List (PathObj × ℝ × ℝ) → Res V
  | _, f, [] => .ok f
  | i, f, (seg, tl, tu) :: rest => do
    let t_local ← pdiv (t - tl) (tu - tl)
    let p ← seg.call t_local
    loop n t (i + 1) (f + p * boolNum (isokay n i t_local)) rest

/-- `path.py:119-136` `Polyline.__call__`.  `f *= 0.0` turns the value of the first segment into the
zero vector. -/
noncomputable def call (s : State) (t : ℝ) : Res V :=
  match s.segs with
  | [] => .error .index
  | [seg] => seg.call t
  | seg0 :: _ => do
    let f0 ← seg0.call t
    loop s.segs.length t 0 (f0.imul 0) (s.segs.zip (s.tvals.dropLast.zip s.tvals.tail))

/-- `path.py:138-142` `Polyline.length`. -/
noncomputable def length (s : State) : Res ℝ :=
  s.segs.foldlM (fun L seg => do let l ← seg.length; return L + l) 0

/-- The polyline object. -/
noncomputable def obj (s : State) : PathObj := ⟨call s, length s⟩

end Polyline

/-- `path.py:85-142` `Polyline(segments, closed, tolerance)`. -/
noncomputable def Polyline (segments : List PathObj) (closed : Bool := false)
    (tolerance : ℝ := 1 / 10 ^ 10) : Res PathObj := do
  let s ← Polyline.init segments closed tolerance
  return Polyline.obj s

namespace Spline

/-- `path.py:173-175`: the interpolation points, closed up if requested. -/
noncomputable def points (pts : List V) (closed : Bool) (tolerance : ℝ) : Res (List V) :=
  if closed then
    match pts.head?, pts.getLast? with
    | some p0, some p1 => .ok (if (p0 - p1).abs > tolerance then pts ++ [p0] else pts)
    | _, _ => .error .index
  else .ok pts

/-- `path.py:185-188`: the inner Gauss-Seidel loop over `i = 1 .. m-1` on the work array `d`,
tracking `max_diff`. -/
noncomputable def sweep (m : ℕ) (p : ℕ → V) (d : ℕ → V) : (ℕ → V) × ℝ :=
  (List.range (m - 1)).foldl
    (fun st k =>
      let i := k + 1
      let new := ((p i) * (6 : ℝ) - st.1 (i - 1) - st.1 (i + 1)) * (0.25 : ℝ)
      (Function.update st.1 i new, max st.2 (new - st.1 i).abs))
    (d, 0)

/-- `path.py:183-190`: at most `n` sweeps (the code uses 50), stopping when `max_diff < tolerance`. -/
noncomputable def iterate (m : ℕ) (p : ℕ → V) (tolerance : ℝ) : ℕ → (ℕ → V) → (ℕ → V)
  | 0, d => d
  | n + 1, d =>
    let r := sweep m p d
    if r.2 < tolerance then r.1 else iterate m p tolerance n r.1

/-- `path.py:193-203`: control points of the cubic segment `i`. -/
noncomputable def control (p d : ℕ → V) (i : ℕ) : List V :=
  [p i,
   (d i * (2 : ℝ) + d (i + 1)) * (1 / 3 : ℝ),
   (d i + d (i + 1) * (2 : ℝ)) * (1 / 3 : ℝ),
   p (i + 1)]

/-- `path.py:148-204` `Spline.__init__` up to the call of `super().__init__`: the list of control
polygons. Division by `3.0` is written as multiplication by `1/3`. -/
noncomputable def controls (pts : List V) (closed : Bool) (tolerance : ℝ) : Res (List (List V)) := do
  let ps ← points pts closed tolerance
  let m := ps.length - 1
  let p : ℕ → V := fun i => ps.getD i ⟨0, 0, 0⟩
  let d := iterate m p tolerance 50 p
  return (List.range m).map (control p d)

end Spline

/-- `path.py:145-207` `Spline`. -/
noncomputable def Spline (pts : List V) (closed : Bool := false) (tolerance : ℝ := 1 / 10 ^ 10) :
    Res Polyline.State := do
  let cs ← Spline.controls pts closed tolerance
  Polyline.init (cs.map Bezier) closed tolerance

namespace Arc

/-- `np.arctan2(y, x)`. -/
noncomputable def arctan2 (y x : ℝ) : ℝ := Complex.arg ⟨x, y⟩

/-- `path.py:231-277` `Arc.evaluate_position_and_length`.
Simplified: when `a = c` the code goes through a `nan` tangent before raising at line 249; the model
raises at the normalisation. -/
noncomputable def eval (a b c : V) (t : ℝ) : Res (V × ℝ) := do
  let ca := a - c
  let ca_mag := ca.abs
  let cb := b - c
  let cb_mag := cb.abs
  if |ca_mag - cb_mag| > 1 / 10 ^ 5 then throw .exc
  let tangent1 ← ca.normalize
  let n0 := Vec.cross ca cb
  let n ← if n0.abs > 0 then n0.normalize else throw .exc
  let tangent2 := Vec.cross n tangent1
  let cb_local := (cb.toLocal tangent1 tangent2 n none).1
  if |cb_local.z| > 1 / 10 ^ 6 then throw .exc
  let theta := arctan2 cb_local.y cb_local.x
  let l := theta * cb_mag
  let theta' := theta * t
  let loc : V := ⟨Real.cos theta' * cb_mag, Real.sin theta' * cb_mag, 0 * theta'⟩
  return ((loc.toGlobal tangent1 tangent2 n (some c)).1, l)

end Arc

/-- `path.py:210-229` `Arc`. -/
noncomputable def Arc (a b c : V) : PathObj where
  call t := do let r ← Arc.eval a b c t; return r.1
  length := do let r ← Arc.eval a b c 1; return r.2

namespace ArcLen

/-- `path.py:313-318`: one iteration; the state is `(L, p0)`, the outputs are collected in order. -/
noncomputable def table (call : ℝ → Res V) (dt : ℝ) :
    List ℕ → ℝ → V → Res (List (ℝ × ℝ))
  | [], _, _ => .ok []
  | i :: is, L, p0 => do
    let p1 ← call (dt * (i : ℝ))
    let L' := L + (p1 - p0).abs
    let rest ← table call dt is L' p1
    return (L', dt * (i : ℝ)) :: rest

/-- `path.py:298-321` `set_arc_lengths`: pairs `(arc_length, t_value)`. -/
noncomputable def setArcLengths (call : ℝ → Res V) (n : ℕ) : Res (List (ℝ × ℝ)) := do
  let dt ← pdiv 1 n
  let p0 ← call 0
  let rest ← table call dt ((List.range n).map (· + 1)) 0 p0
  return (0, 0) :: rest

/-- `np.interp` for `x ≥ xp[0]` on a table of `(xp, fp)`: linear interpolation in the interval
`xp[j] ≤ x < xp[j+1]`, `right` beyond the table. -/
noncomputable def interpAux (x right : ℝ) : List (ℝ × ℝ) → ℝ
  | [] => right
  | [a] => if x > a.1 then right else a.2
  | a :: b :: rest =>
    if x < b.1 then a.2 + (b.2 - a.2) / (b.1 - a.1) * (x - a.1) else interpAux x right (b :: rest)

/-- `np.interp(x, xp, fp, left, right)`. -/
noncomputable def interp (x : ℝ) (tbl : List (ℝ × ℝ)) (left right : ℝ) : ℝ :=
  match tbl with
  | [] => left
  | a :: rest => if x < a.1 then left else interpAux x right (a :: rest)

/-- `path.py:323-333` `underlying_t`. -/
noncomputable def underlyingT (tbl : List (ℝ × ℝ)) (t : ℝ) : ℝ :=
  let L_target := t * (tbl.getLastD (0, 0)).1
  interp L_target tbl 0 1

end ArcLen

/-- `path.py:280-344` `ArcLengthParameterizedPath(underlying_path, n)`: construction samples the
path; `length` is that of the underlying path. -/
noncomputable def ArcLengthParameterizedPath (p : PathObj) (n : ℤ := 1000) : Res PathObj :=
  if n < 1 then .error .runtime
  else do
    let tbl ← ArcLen.setArcLengths p.call n.toNat
    return ⟨fun t => p.call (ArcLen.underlyingT tbl t), p.length⟩

/-- `path.py:347-368` `roberts`.  `np.power` of a positive base is the real power. Division by zero
occurs for `beta = 1`, `alpha = 1` and `alpha = -1/2`. -/
noncomputable def roberts (eta alpha beta : ℝ) : Res ℝ := do
  let l0 ← pdiv (beta + 1) (beta - 1)
  let e ← pdiv (eta - alpha) (1 - alpha)
  let lmbda := l0 ^ e
  let etabar := (beta + 2 * alpha) * lmbda - beta + 2 * alpha
  pdiv etabar ((2 * alpha + 1) * (1 + lmbda))

/-- `path.py:371-415` `clustered_roberts`. -/
noncomputable def clusteredRoberts (eta : ℝ) (end1 end2 : Bool) (beta : ℝ) : Res ℝ :=
  let cluster : Bool := !((!end1 && !end2) || decide (beta < 1))
  let reverse : Bool := end1 && !end2
  let alpha : ℝ := if end1 && end2 then 0.5 else if end1 && !end2 then 0 else if !end1 && end2 then 0
    else 0.5
  if cluster then do
    let eta' := if reverse then 1 - eta else eta
    let etabar ← roberts eta' alpha beta
    return if reverse then 1 - etabar else etabar
  else .ok eta

/-- `np.linspace(0, 1, n)`: `n` values, `[0]` for `n = 1`. -/
noncomputable def linspace01 (n : ℕ) : List ℝ := (List.range n).map fun (i : ℕ) => (i : ℝ) / ((n : ℝ) - 1)

/-- `path.py:418-453` `distribute_points`. -/
noncomputable def distributePoints (t1 t2 : ℝ) (n : ℕ) (end1 end2 : Bool) (beta : ℝ) :
    Res (List ℝ) :=
  (linspace01 (n + 1)).mapM fun eta => do
    let etabar ← clusteredRoberts eta end1 end2 beta
    return (1 - etabar) * t1 + etabar * t2

/-- `path.py:470-487` `LinearFunction.distribute_parameter_values`. -/
noncomputable def LinearFunction.distribute (nv : ℕ) : List ℝ := linspace01 nv

/-- `path.py:511-512` `RobertsFunction.__call__`. -/
noncomputable def RobertsFunction.call (end0 end1 : Bool) (beta x : ℝ) : Res ℝ :=
  clusteredRoberts x end0 end1 beta

/-- `path.py:514-516` `RobertsFunction.distribute_parameter_values`; `nv - 1` intervals. -/
noncomputable def RobertsFunction.distribute (end0 end1 : Bool) (beta : ℝ) (nv : ℕ) :
    Res (List ℝ) := distributePoints 0 1 (nv - 1) end0 end1 beta

end HV

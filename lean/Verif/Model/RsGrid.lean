import Verif.Model.RsStep

/-!
# Interpolation on a grid of any number of dimensions (`multilinear`, rust/fastsim-core/src/utils.rs)

Lines are those of rust/fastsim-core/src/utils.rs ("utils:"). Numbers are those of an ordered field, so the test for values
that are not a number (utils:481-486) is left out.
-/

namespace Fastsim

/-- `ndarray::ArrayD<f64>`: the lengths of the axes and the value at an index. What `get` gives outside the shape is never read. -/
structure NdArr (K : Type*) where
  shape : List ℕ
  get : List ℕ → K

/-- utils:252-261 `get_index_permutations`: the indices of an array, the last one changing fastest. -/
def indexPermutations : List ℕ → List (List ℕ)
  | [] => [[]]
  | n :: ns => (List.range n).flatMap fun i => (indexPermutations ns).map (i :: ·)

namespace NdArr
variable {K : Type*}

/-- `ArrayBase::len` -/
def len (a : NdArr K) : ℕ := a.shape.prod

/-- `index_axis_inplace(Axis(dim), pos)`: the slice at `pos`, without the axis (utils:433). -/
def indexAxis (a : NdArr K) (dim pos : ℕ) : NdArr K :=
  ⟨a.shape.eraseIdx dim, fun idx => a.get (idx.insertIdx dim pos)⟩

/-- `slice_each_axis` from `lower` to `lower + 1` on every axis (utils:460-465). -/
def corners (a : NdArr K) (lower : List ℕ) : NdArr K :=
  ⟨a.shape.map fun _ => 2, fun idx => a.get (List.zipWith (· + ·) lower idx)⟩

/-- Assignment of one entry. -/
def set (a : NdArr K) (idx : List ℕ) (v : K) : NdArr K :=
  ⟨a.shape, fun j => if j = idx then v else a.get j⟩

end NdArr

section
variable {K : Type*} [Zero K] [One K] [NatCast K] [Add K] [Sub K] [Mul K] [Div K] [Neg K] [LinearOrder K]

/-- utils:400-416: the checks of one dimension. An axis without points is read at its first point, which is a panic. -/
def gridCheck (g : List K) (len : ℕ) (x : K) : Except RsErr Unit :=
  if g.length ≠ len then .error .err
  else if ¬ (g.zip g.tail).all (fun w => decide (w.1 < w.2)) then .error .err
  else match g.head?, g.getLast? with
    | some a, some b => if a ≤ x ∧ x ≤ b then .ok () else .error .err
    | _, _ => .error .panic

/-- utils:399-417: the checks, dimension after dimension. -/
def gridChecks : List (List K) → List ℕ → List K → Except RsErr Unit
  | g :: gs, n :: ns, x :: xs => match gridCheck g n x with
    | .ok () => gridChecks gs ns xs
    | .error e => .error e
  | _, _, _ => .ok ()

/-- The state of the reduction (utils:422-424). -/
structure GridView (K : Type*) where
  point : List K
  grid : List (List K)
  values : NdArr K

/-- utils:427-434: one dimension of the reduction. -/
def gridReduceAt (s : GridView K) (dim : ℕ) : GridView K :=
  match s.grid[dim]?, s.point[dim]? with
  | some g, some x => match g.findIdx? (fun p => decide (p = x)) with
    | some pos => ⟨s.point.eraseIdx dim, s.grid.eraseIdx dim, s.values.indexAxis dim pos⟩
    | none => s
  | _, _ => s

/-- utils:425-435: the reduction, from the last dimension to the first. -/
def gridReduce (n : ℕ) (s : GridView K) : GridView K :=
  (List.range n).reverse.foldl gridReduceAt s

/-- utils:448-453: the cell of one dimension and how far the point is in it. -/
def gridCell (g : List K) (x : K) : Except RsErr (ℕ × K) :=
  match (g.zip g.tail).findIdx? (fun w => decide (w.1 < x ∧ x < w.2)) with
  | none => .error .panic
  | some i => match g[i]?, g[i + 1]? with
    | some a, some b => .ok (i, (x - a) / (b - a))
    | _, _ => .error .panic

/-- utils:445-456 -/
def gridCells : List (List K) → List K → Except RsErr (List (ℕ × K))
  | g :: gs, x :: xs => match gridCell g x with
    | .error e => .error e
    | .ok c => match gridCells gs xs with
      | .error e => .error e
      | .ok cs => .ok (c :: cs)
  | _, _ => .ok []

/-- utils:479-490: one entry of the smaller array. -/
def gridPass (vals : NdArr K) (perms next : List (List ℕ)) (diff : K) (i : ℕ) (out : NdArr K) : NdArr K :=
  match perms[i]?, perms[next.length + i]?, next[i]? with
  | some l, some u, some j => out.set j (vals.get l * (1 - diff) + vals.get u * diff)
  | _, _, _ => out

/-- utils:466-494: the loop over the dimensions. -/
def gridLoop : List K → NdArr K → List (List ℕ) → NdArr K
  | [], vals, _ => vals
  | diff :: diffs, vals, perms =>
    let shape := List.replicate diffs.length 2
    let next := indexPermutations shape
    let out := (List.range next.length).foldl (fun out i => gridPass vals perms next diff i out) ⟨shape, fun _ => 0⟩
    gridLoop diffs out next

/-- utils:386-498 `multilinear` -/
def multilinear (point : List K) (grid : List (List K)) (values : NdArr K) : Except RsErr K :=
  if point.length ≠ values.shape.length then .error .err
  else if grid.length ≠ values.shape.length then .error .err
  else match gridChecks grid values.shape point with
    | .error e => .error e
    | .ok () =>
      let s := gridReduce values.shape.length ⟨point, grid, values⟩
      if s.values.len = 1 then .ok (s.values.get (s.values.shape.map fun _ => 0))
      else match gridCells s.grid s.point with
        | .error e => .error e
        | .ok cells =>
          let vals := s.values.corners (cells.map Prod.fst)
          .ok ((gridLoop (cells.map Prod.snd) vals (indexPermutations vals.shape)).get [])

end
end Fastsim

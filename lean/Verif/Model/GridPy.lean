import Verif.Model.Variate

/-
Model of the Python grids: src/pyinterp/grid.py, src/pyinterp/backends/xarray.py, src/pyinterp/cf.py and the
selection of the functions in src/pyinterp/interpolator/{bivariate,trivariate,quadrivariate}.py.

Axes are Python objects shared by reference (`std::shared_ptr` in C++): `heap` is the list of the axis objects and
a reference is an index of this list. Values are those of the models `Axis` and `Variate`. The type of the elements
of the array is not modelled here (C78), nor the message of the exceptions.
-/
namespace Pyinterp.GridPy
open Pyinterp Variate

section
variable {K : Type} [Field K] [LinearOrder K] [FloorRing K]

/-- `core.Axis` or `core.TemporalAxis` objects. -/
inductive AxisObj (K : Type) where
  | float (a : Axis K)
  | time (a : Axis Int)

/-- `axis.is_ascending()` (module/axis.cpp, detail/axis.hpp:182-184). -/
def AxisObj.isAscending : AxisObj K → Bool
  | .float a => a.cont.isAscending
  | .time a => a.cont.isAscending

/-- `len(axis)`. -/
def AxisObj.size : AxisObj K → Int
  | .float a => a.size
  | .time a => a.size

/-- `axis[i]` (module/axis.cpp:33-38): a number or a date. -/
def AxisObj.item (o : AxisObj K) (i : Nat) : Out (K ⊕ Int) :=
  match o with
  | .float a => do
    let v ← a.coordinateValue i
    pure (.inl v)
  | .time a => do
    let v ← a.coordinateValue i
    pure (.inr v)

/-- `self->flip()` (module/axis.cpp:55, 60; detail/axis.hpp flip). -/
def AxisObj.flip : AxisObj K → AxisObj K
  | .float a => .float a.flip
  | .time a => .time a.flip

/-- `Axis::setstate(self->getstate())` (module/axis.cpp:58-59). -/
def AxisObj.copy : AxisObj K → Out (AxisObj K)
  | .float a => do
    let s ← a.getstate
    let b ← Axis.setstate s
    pure (.float b)
  | .time a => do
    let s ← a.getstate
    let b ← Axis.setstate s
    pure (.time b)

/-- `numpy.flip(array, axis)`: the view of the array reversed along one axis; an exception if there is no such axis.
(numpy; called in grid.py:87-88.) -/
def npFlip (a : Arr K) (axis : Nat) : Out (Arr K) :=
  match a.shape[axis]? with
  | none => .error .exn
  | some n => .ok { shape := a.shape, at' := fun i => a.at' (i.modify axis fun k => n - 1 - k) }

/-- The arguments of the constructor of a grid: references to the axes and the array (grid.py:62). -/
structure Args (K : Type) where
  heap : List (AxisObj K)
  refs : List Nat
  arr : Arr K

/-- One iteration of the loop that reverses the decreasing axes (grid.py:80-88). `inplace`: the object is modified;
otherwise a new object is created. The exception left by `numpy.flip` after the modification of the axis is
modelled, not the state of the axis after it. -/
def flipStep (inplace : Bool) (st : Args K) (idx : Nat) : Out (Args K) := do
  let ref ← rd st.refs idx
  let item ← rd st.heap ref
  if item.isAscending then return st
  if inplace then do
    let arr ← npFlip st.arr idx
    return { st with heap := st.heap.set ref item.flip, arr := arr }
  else do
    let copy ← item.copy
    let arr ← npFlip st.arr idx
    return { heap := st.heap ++ [copy.flip], refs := st.refs.set idx st.heap.length, arr := arr }

/-- The loop over the first `n` arguments (grid.py:80). -/
def flipUpTo (inplace : Bool) (st : Args K) : Nat → Out (Args K)
  | 0 => .ok st
  | n + 1 => do
    let st ← flipUpTo inplace st n
    flipStep inplace st n

/-- The objects of `core` (grid.hpp:388-458). -/
inductive GridObj (K : Type) where
  | d2 (g : Grid2D K)
  | d3 (g : Grid3D K K)
  | t3 (g : Grid3D Int K)
  | d4 (g : Grid4D K K)
  | t4 (g : Grid4D Int K)

/-- `getattr(core, f'{prefix}Grid{dims}D...')(*args)` (grid.py:63-69, 89): the class and the types of its arguments
(`TemporalGrid2D` does not exist; only the third axis may be temporal). -/
def construct (dims : Nat) (axes : List (AxisObj K)) (arr : Arr K) : Out (GridObj K) :=
  match dims, axes with
  | 2, [.float x, .float y] => do
    let g ← mkGrid2D x y arr
    pure (.d2 g)
  | 3, [.float x, .float y, .float z] => do
    let g ← mkGrid3D x y z arr
    pure (.d3 g)
  | 3, [.float x, .float y, .time z] => do
    let g ← mkGrid3D x y z arr
    pure (.t3 g)
  | 4, [.float x, .float y, .float z, .float u] => do
    let g ← mkGrid4D x y z u arr
    pure (.d4 g)
  | 4, [.float x, .float y, .time z, .float u] => do
    let g ← mkGrid4D x y z u arr
    pure (.t4 g)
  | _, _ => .error .exn

/-- The argument `increasing_axes` (grid.py:71-75): `some true` is "inplace", `some false` is "copy". -/
def parseIncreasing : Option (List Char) → Out (Option Bool)
  | none => .ok none
  | some s =>
    if s = "inplace".toList then .ok (some true)
    else if s = "copy".toList then .ok (some false)
    else .error .exn

/-- The axis objects referenced by the arguments. -/
def deref (heap : List (AxisObj K)) : List Nat → Out (List (AxisObj K))
  | [] => .ok []
  | r :: refs => do
    let a ← rd heap r
    let rest ← deref heap refs
    pure (a :: rest)

/-- `Grid2D.__init__`, and those of `Grid3D` and `Grid4D` which call it (grid.py:62-90, 158-159, 193-194). Returns the
state of the program (the axes), the references and the array kept by the object, and the object. -/
def init (dims : Nat) (increasing : Option (List Char)) (st : Args K) : Out (Args K × GridObj K) := do
  let mode ← parseIncreasing increasing
  let st ← match mode with
    | none => pure st
    | some inplace => flipUpTo inplace st st.refs.length
  let axes ← deref st.heap st.refs
  let g ← construct dims axes st.arr
  pure (st, g)

/-- `setstate(getstate())` of an axis (axis.hpp:198-260). -/
def axisPickle {T : Type} [LinearOrder T] [AddCommGroup T] [AxisNum T] (a : Axis T) : Out (Axis T) := do
  let s ← a.getstate
  Axis.setstate s

/-- `setstate(getstate())` of a grid (grid.hpp:101-116, 160-184, 216-239): the states of the axes and the array, then the
constructor. numpy copies the values of the array. -/
def GridObj.pickle : GridObj K → Out (GridObj K)
  | .d2 g => do
    let x ← axisPickle g.x
    let y ← axisPickle g.y
    let r ← mkGrid2D x y g.arr
    pure (.d2 r)
  | .d3 g => do
    let x ← axisPickle g.x
    let y ← axisPickle g.y
    let z ← axisPickle g.z
    let r ← mkGrid3D x y z g.arr
    pure (.d3 r)
  | .t3 g => do
    let x ← axisPickle g.x
    let y ← axisPickle g.y
    let z ← axisPickle g.z
    let r ← mkGrid3D x y z g.arr
    pure (.t3 r)
  | .d4 g => do
    let x ← axisPickle g.x
    let y ← axisPickle g.y
    let z ← axisPickle g.z
    let u ← axisPickle g.u
    let r ← mkGrid4D x y z u g.arr
    pure (.d4 r)
  | .t4 g => do
    let x ← axisPickle g.x
    let y ← axisPickle g.y
    let z ← axisPickle g.z
    let u ← axisPickle g.u
    let r ← mkGrid4D x y z u g.arr
    pure (.t4 r)

/-- `_core_variate_interpolator` (grid.py:212-239): the name of the interpolator; `dimensions` of a 4D grid is 3. -/
inductive Name where
  | bilinear | nearest | idw
  deriving DecidableEq

def parseName (s : List Char) : Out Name :=
  if s = "bilinear".toList then .ok .bilinear
  else if s = "nearest".toList then .ok .nearest
  else if s = "inverse_distance_weighting".toList then .ok .idw
  else .error .exn

/-! ### backends/xarray.py -/

/-- The values of a coordinate. -/
inductive Values (K : Type) where
  | num (l : List K)
  | datetime (l : List Int)
  | timedelta (l : List Int)

/-- A coordinate of a `DataArray`: its name, its attribute `units`, its number of dimensions and its values (used
only for one dimension). -/
structure Coord (N K : Type) where
  name : N
  units : Option String
  ndim : Nat
  values : Values K

/-- `xarray.DataArray`: the names of the dimensions, the array, the coordinates in the order of `coords`. -/
structure DataArray (N K : Type) where
  dims : List N
  arr : Arr K
  coords : List (Coord N K)

variable {N : Type} [DecidableEq N]

/-- `cf.AxisLongitudeUnit` (cf.py:40-50). -/
def longitudeUnits : List String :=
  ["degrees_east", "degree_east", "degree_E", "degrees_E", "degreeE", "degreesE"]

/-- `cf.AxisLatitudeUnit` (cf.py:26-36). -/
def latitudeUnits : List String :=
  ["degrees_north", "degree_north", "degree_N", "degrees_N", "degreeN", "degreesN"]

/-- `hasattr(coord, 'units') and coord.units in units` (backends/xarray.py:44). -/
def hasUnit (units : List String) (c : Coord N K) : Bool :=
  match c.units with
  | none => false
  | some u => units.contains u

/-- `AxisIdentifier._axis` (backends/xarray.py:34-46). -/
def identify (da : DataArray N K) (units : List String) : Option N := (da.coords.find? (hasUnit units)).map Coord.name

/-- `_dims_from_data_array` (backends/xarray.py:65-105). Without `geodetic`, a tuple of fewer than two names is
refused later by the callers (IndexError or ValueError). -/
def dimsFromDataArray (da : DataArray N K) (geodetic : Bool) (ndims : Nat) : Out (N × N) :=
  if da.arr.shape.length ≠ ndims then .error .exn
  else if geodetic then
    match identify da longitudeUnits with
    | none => .error .exn
    | some lon =>
      match identify da latitudeUnits with
      | none => .error .exn
      | some lat => .ok (lon, lat)
  else
    match da.coords with
    | a :: b :: _ => .ok (a.name, b.name)
    | _ => .error .exn

/-- `data_array.coords[name]`: `KeyError` if there is none. -/
def coordOf (da : DataArray N K) (name : N) : Out (Coord N K) :=
  match da.coords.find? fun c => decide (c.name = name) with
  | none => .error .exn
  | some c => .ok c

/-- `core.Axis(values, is_circle=...)` with the default tolerance 1e-6 (backends/xarray.py:188-190). The conversion of
dates to numbers by numpy is not modelled (refused here). -/
def numAxis (c : Coord N K) (isCircle : Bool) : Out (AxisObj K) :=
  if c.ndim ≠ 1 then .error .exn
  else
    match c.values with
    | .num l => do
      let a ← mkAxis false l (1 / 1000000) isCircle
      pure (.float a)
    | _ => .error .exn

/-- `core.TemporalAxis(values)` (temporal_axis.hpp:59-61). -/
def timeAxis (c : Coord N K) (l : List Int) : Out (AxisObj K) :=
  if c.ndim ≠ 1 then .error .exn
  else do
    let a ← mkAxis true l 0 false
    pure (.time a)

/-- `data_array.transpose(*dims)` (xarray): refused unless `dims` is a permutation of the dimensions. -/
def transpose (da : DataArray N K) (dims : List N) : Out (Arr K) :=
  if dims.length = da.dims.length ∧ dims.Nodup ∧ ∀ d ∈ dims, d ∈ da.dims then
    .ok { shape := dims.map fun d => da.arr.shape.getD (da.dims.idxOf d) 0
          at' := fun i => da.arr.at' (da.dims.map fun d => i.getD (dims.idxOf d) 0) }
  else .error .exn

/-- A grid of `pyinterp.backends.xarray`: `_dims`, the position of the time axis in `_dims` if `_datetime64` is set, the
axes, the object of `core`. -/
structure XGrid (N K : Type) where
  dims : List N
  time : Option Nat
  args : Args K
  grid : GridObj K

/-- `increasing_axes='inplace' if increasing_axes else None` (backends/xarray.py:192, 266, 361). -/
def increasingOf (b : Bool) : Option (List Char) := if b then some "inplace".toList else none

/-- `xarray.Grid2D.__init__` (backends/xarray.py:181-192). -/
def xgrid2D (da : DataArray N K) (increasing geodetic : Bool) : Out (XGrid N K) := do
  let d ← dimsFromDataArray da geodetic 2
  let cx ← coordOf da d.1
  let ax ← numAxis cx geodetic
  let cy ← coordOf da d.2
  let ay ← numAxis cy false
  let arr ← transpose da [d.1, d.2]
  let r ← init 2 (increasingOf increasing) { heap := [ax, ay], refs := [0, 1], arr := arr }
  pure { dims := [d.1, d.2], time := none, args := r.1, grid := r.2 }

/-- `set(data_array.dims) - {x, y}` (backends/xarray.py:249, 328). -/
def otherDims (da : DataArray N K) (x y : N) : List N := da.dims.filter fun d => decide (d ≠ x ∧ d ≠ y)

/-- `xarray.Grid3D.__init__` (backends/xarray.py:243-266). `pick` is the choice made by `set.pop`. -/
def xgrid3D (pick : List N → N) (da : DataArray N K) (increasing geodetic : Bool) : Out (XGrid N K) := do
  let d ← dimsFromDataArray da geodetic 3
  if (otherDims da d.1 d.2).isEmpty then throw .exn
  let z := pick (otherDims da d.1 d.2)
  let cz ← coordOf da z
  let cx ← coordOf da d.1
  let ax ← numAxis cx geodetic
  let cy ← coordOf da d.2
  let ay ← numAxis cy false
  let az ← match cz.values with
    | .num _ => numAxis cz false
    | .datetime l => timeAxis cz l
    | .timedelta l => timeAxis cz l
  let arr ← transpose da [d.1, d.2, z]
  let r ← init 3 (increasingOf increasing) { heap := [ax, ay, az], refs := [0, 1, 2], arr := arr }
  pure { dims := [d.1, d.2, z]
         time := match cz.values with
           | .num _ => none
           | _ => some 2
         args := r.1, grid := r.2 }

/-- `'datetime64' in dtype.name` (backends/xarray.py:333, 337). -/
def Values.isDatetime : Values K → Bool
  | .datetime _ => true
  | _ => false

/-- The Z axis of `xarray.Grid4D` (backends/xarray.py:354-355): the temporal axis, or `core.Axis` (which is not
defined for time differences in this model). -/
def zAxis4 (c : Coord N K) : Out (AxisObj K) :=
  match c.values with
  | .datetime l => timeAxis c l
  | _ => numAxis c false

/-- `xarray.Grid4D.__init__` (backends/xarray.py:323-361). `swap` is the order of the iteration over a Python set
(`z, u = tuple(set(dims) - {x, y})`), which is not determined by the data. -/
def xgrid4D (swap : Bool) (da : DataArray N K) (increasing geodetic : Bool) : Out (XGrid N K) := do
  let d ← dimsFromDataArray da geodetic 4
  let zu ← match otherDims da d.1 d.2 with
    | [a, b] => if swap then pure (b, a) else pure (a, b)
    | _ => throw .exn
  let cz ← coordOf da zu.1
  let cu ← coordOf da zu.2
  if cz.values.isDatetime && cu.values.isDatetime then throw .exn
  -- The time axis is the Z axis.
  let zu := if cu.values.isDatetime then (zu.2, zu.1) else zu
  let c := if cu.values.isDatetime then (cu, cz) else (cz, cu)
  let cx ← coordOf da d.1
  let ax ← numAxis cx geodetic
  let cy ← coordOf da d.2
  let ay ← numAxis cy false
  let az ← zAxis4 c.1
  let au ← numAxis c.2 false
  let arr ← transpose da [d.1, d.2, zu.1, zu.2]
  let r ← init 4 (increasingOf increasing) { heap := [ax, ay, az, au], refs := [0, 1, 2, 3], arr := arr }
  pure { dims := [d.1, d.2, zu.1, zu.2]
         time := if c.1.values.isDatetime then some 2 else none
         args := r.1, grid := r.2 }

/-- `_coords` (backends/xarray.py:108-148): the coordinates in the order of the dimensions of the grid. `coords` is a
Python dictionary. The conversion `safe_cast` of the dates to the unit of the axis is not modelled (dates are already
in this unit). -/
def lookup {V : Type} (coords : List (N × V)) (d : N) : Out V :=
  match coords.find? fun p => decide (p.1 = d) with
  | none => .error .exn
  | some p => .ok p.2

def lookups {V : Type} (coords : List (N × V)) : List N → Out (List V)
  | [] => .ok []
  | d :: dims => do
    let v ← lookup coords d
    let rest ← lookups coords dims
    pure (v :: rest)

def coordsOf {V : Type} (coords : List (N × V)) (dims : List N) : Out (List V) :=
  if coords.length ≠ dims.length then .error .exn
  else if ∃ p ∈ coords, p.1 ∉ dims then .error .exn
  else lookups coords dims

/-- The interpolation of one point (`bivariate`, `trivariate`, `quadrivariate`: backends/xarray.py:194-213, 268-288,
363-382 and interpolator/*.py) once the coordinates are ordered; a coordinate of the wrong kind is refused. -/
def evaluate (m : Method K) (zm um : ZMethod) (g : GridObj K) (p : List (K ⊕ Int)) (boundsError : Bool) :
    Out (Option K) :=
  match g, p with
  | .d2 g, [.inl x, .inl y] => bivariate m g x y boundsError
  | .d3 g, [.inl x, .inl y, .inl z] => trivariate m zm g x y z boundsError
  | .t3 g, [.inl x, .inl y, .inr z] => trivariate m zm g x y z boundsError
  | .d4 g, [.inl x, .inl y, .inl z, .inl u] => quadrivariate m zm um g x y z u boundsError
  | .t4 g, [.inl x, .inl y, .inr z, .inl u] => quadrivariate m zm um g x y z u boundsError
  | _, _ => .error .exn

/-- `RegularGridInterpolator.__init__` (backends/xarray.py:451-471). -/
def interpolator (pick : List N → N) (swap : Bool) (da : DataArray N K) (increasing geodetic : Bool) :
    Out (XGrid N K) :=
  match da.arr.shape.length with
  | 2 => xgrid2D da increasing geodetic
  | 3 => xgrid3D pick da increasing geodetic
  | 4 => xgrid4D swap da increasing geodetic
  | _ => .error .exn

/-- `RegularGridInterpolator.__call__` for the methods other than `bicubic` (backends/xarray.py:498-548) at one point. -/
def call (m : Method K) (zm um : ZMethod) (g : XGrid N K) (coords : List (N × (K ⊕ Int))) (boundsError : Bool) :
    Out (Option K) := do
  let p ← coordsOf coords g.dims
  evaluate m zm um g.grid p boundsError

end

end Pyinterp.GridPy

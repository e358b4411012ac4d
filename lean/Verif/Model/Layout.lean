import Verif.Model.UVGrid
import Mathlib.Analysis.SpecialFunctions.Complex.Arg
import Mathlib.Analysis.SpecialFunctions.Trigonometric.Inverse
/-!
# Model of `radio_telescope_layout.py`: geographic coordinates and layouts of antennas

Units are modelled by the power of a length (positions) or by their size in radians (angles).
-/

namespace Verif.Layout
open Verif.UVGrid

/-- The exceptions of the modelled code. -/
inductive Err
  | index | attribute | units | unbound | value | file
  deriving DecidableEq

/-- A two-dimensional array. -/
structure Table where
  width : ℕ
  rows : List (Fin width → ℝ)

/-- `table[:, k]`. -/
def Table.column (t : Table) (k : ℕ) : Except Err (List ℝ) :=
  if h : k < t.width then .ok (t.rows.map fun r => r ⟨k, h⟩) else .error .index

/-! ### Geographic to Cartesian -/

/-- The argument `antll`: a plain array, or a Quantity whose unit is so many radians (`none`: not an angle). -/
inductive Angles
  | plain (t : Table)
  | quantity (unit : Option ℝ) (t : Table)

/-- `Re` in metres (line 293). -/
noncomputable def earth : ℝ := 6371 * 1000

/-- `geographic_to_cartesian_coordinate_system` (`radio_telescope_layout.py` lines 270-308).  A plain array is taken in
degrees (line 295; the array gives way to the unit, so that `antll` is a new Quantity).  `np.cos` of a Quantity that is
not an angle raises. -/
noncomputable def geoToCart (a : Angles) : Except Err (List V3) :=
  let p := match a with
    | .plain t => (some (Real.pi / 180), t)
    | .quantity u t => (u, t)
  match p.2.column 0, p.2.column 1 with
  | .error e, _ => .error e
  | _, .error e => .error e
  | .ok lon, .ok lat =>
    match p.1 with
    | none => .error .units
    | some u => .ok (List.zipWith (fun l b => ![earth * Real.cos (b * u) * Real.cos (l * u),
        earth * Real.cos (b * u) * Real.sin (l * u), earth * Real.sin (b * u)]) lon lat)

/-! ### Cartesian to geographic -/

/-- The argument `antxyz`: a plain array, or a Quantity in units of `scale * m ** power`.  Other units are not modelled. -/
inductive Positions
  | plain (t : Table)
  | quantity (scale : ℝ) (power : ℤ) (t : Table)

/-- Longitude and latitude in degrees and height in metres of one position `x, y, z` in units of `scale` metres (lines
347-352).  At the centre of the Earth `z / r` is NaN. -/
noncomputable def geographic (scale x y z : ℝ) : ℝ × Option ℝ × ℝ :=
  let r := Real.sqrt (x ^ 2 + y ^ 2 + z ^ 2)
  (Complex.arg ⟨x, y⟩ * (180 / Real.pi),
    if r = 0 then none else some (Real.arcsin (z / r) * (180 / Real.pi)),
    r * scale - earth)

/-- `cartesian_to_geographic_coordinate_system` (`radio_telescope_layout.py` lines 311-356), with the argument as it is after
the call: line 339 attaches metres when the argument **is** a Quantity, and does it in place.  A plain array has no
method `to` (line 350); `r - Re` needs a length (line 352). -/
noncomputable def cartToGeo (p : Positions) : Except Err (List (ℝ × Option ℝ × ℝ)) × Positions :=
  let q := match p with
    | .plain t => Positions.plain t
    | .quantity s k t => .quantity s (k + 1) t
  let res := match q with
    | .plain t =>
      match t.column 0, t.column 1, t.column 2 with
      | .ok _, .ok _, .ok _ => .error .attribute
      | .error e, _, _ => .error e
      | _, .error e, _ => .error e
      | _, _, .error e => .error e
    | .quantity s k t =>
      match t.column 0, t.column 1, t.column 2 with
      | .ok xs, .ok ys, .ok zs =>
        if k = 1 then .ok ((xs.zip (ys.zip zs)).map fun v => geographic s v.1 v.2.1 v.2.2)
        else .error .units
      | .error e, _, _ => .error e
      | _, .error e, _ => .error e
      | _, _, .error e => .error e
  (res, q)

/-! ### Layouts -/

/-- `name.upper()`, for ASCII characters. -/
def upper (s : String) : List Char := s.toList.map Char.toUpper

/-- `name.lower()`, for ASCII characters. -/
def lower (s : String) : List Char := s.toList.map Char.toLower

/-- The file of a subarray (lines 461-472). -/
def layoutFile (name : String) : String :=
  if upper name = ['A', 'A', '4'] then "input_data/skalow_AA4_layout.txt"
  else if upper name = ['A', 'A', 'S', 'T', 'A', 'R'] ∨ upper name = ['A', 'A', '*'] then
    "input_data/skalow_AAstar_layout.txt"
  else if upper name = ['A', 'A', '2'] then "input_data/skalow_AA2_layout.txt"
  else if upper name = ['A', 'A', '1'] then "input_data/skalow_AA1_layout.txt"
  else if upper name = ['A', 'A', '0', '.', '5'] then "input_data/skalow_AA0.5_layout.txt"
  else "input_data/skalow1_layout.txt"

/-- What is read from the package: the geographic position of the centre in degrees, its Earth-centred position (by
`astropy`, lines 478-479), and the antenna positions of a file (`none`: no such file). -/
structure Package where
  lon : ℝ
  lat : ℝ
  origin : V3
  load : String → Option (List V3)

/-- `np.deg2rad`. -/
noncomputable def rad (x : ℝ) : ℝ := x * (Real.pi / 180)

/-- `get_SKA_Low_layout` (`radio_telescope_layout.py` lines 444-510): positions in metres.  In the branch of `'latlon'`
`ant_ecef` has not been assigned (line 507). -/
noncomputable def getLayout (pkg : Package) (name unit : String) : Except Err (List V3) :=
  match pkg.load (layoutFile name) with
  | none => .error .file
  | some enu =>
    if lower unit = ['e', 'n', 'u'] then .ok enu
    else if lower unit = ['e', 'c', 'e', 'f'] then
      .ok (enu.map (enuToEcef (rad pkg.lat) (rad pkg.lon) pkg.origin))
    else if lower unit = ['x', 'y', 'z'] then
      .ok ((enu.map (enuToEcef (rad pkg.lat) (rad pkg.lon) pkg.origin)).map (ecefToXyz (rad pkg.lon) pkg.origin))
    else if unit = "latlon" ∨ unit = "geodetic" then .error .unbound
    else .error .value

/-- The argument of `subarray_type_to_antxyz`: a name, an array (of any number of coordinates) or something else. -/
inductive Subarray
  | name (s : String)
  | array (rows : List V3)
  | other

/-- `subarray_type_to_antxyz` (`radio_telescope_layout.py` lines 12-40): positions and number of antennas.  `sept2016` is the table of
`SKA1_LowConfig_Sept2016` (lines 560-563).  Simplified: arrays have three columns. -/
noncomputable def toXyz (pkg : Package) (sept2016 : Table) (a : Subarray) : Except Err (List V3 × ℕ) :=
  match (match a with
    | .name s => getLayout pkg s "xyz"
    | .array rows => .ok rows
    | .other => geoToCart (.plain sept2016)) with
  | .error e => .error e
  | .ok l => .ok (l, l.length)

end Verif.Layout

import Verif.Model.Constants
import Mathlib.MeasureTheory.Integral.IntervalIntegral.Basic
import Mathlib.Analysis.SpecialFunctions.Pow.Real
import Mathlib.Analysis.SpecialFunctions.Sqrt
import Mathlib.Analysis.SpecialFunctions.Log.Base
import Mathlib.Analysis.Real.Pi.Bounds
/-!
# Model of the conversions of `cosmo.py`, `usefuls.py`, `conv.py`, `nbody_tools.py` and
`radio_telescope_sensitivity.py`

Floating point numbers are exact reals and `scipy.integrate.quad` is the exact integral.  The
module globals are the `Const` and `Conv` records of `Model/Constants.lean`.  A NumPy vector
remembers whether its entries are integers, because `np.zeros_like` hands that on to the
result.
-/

namespace Verif.Conversions

open Verif.Constants

/-- `const.c` in km/s (`const.py` line 12). -/
noncomputable def c : ℝ := 300000

/-- `const.nu0` in MHz (`const.py` line 106). -/
noncomputable def nu0 : ℝ := 1420

/-- `const.solar_masses_per_gram` (`const.py` line 32). -/
noncomputable def solarMassesPerGram : ℝ := 502785431 / 10 ^ 42

/-- `const.c_light_SI` in m/s (`const.py` line 18). -/
noncomputable def cLightSI : ℝ := 299792458

/-- `const.KB_SI` in J/K (`const.py` line 19). -/
noncomputable def kbSI : ℝ := 1380649 / 10 ^ 29

/-- `const.janskytowatt` in W/m²/Hz (`const.py` line 20). -/
noncomputable def janskyToWatt : ℝ := 1 / 10 ^ 26

/-! ### Frequencies and proper lengths -/

/-- `nu_to_z` (`cosmo.py` lines 242-252). -/
noncomputable def nu_to_z (nu21 : ℝ) : ℝ := nu0 / nu21 - 1

/-- `z_to_nu` (`cosmo.py` lines 255-265). -/
noncomputable def z_to_nu (z : ℝ) : ℝ := nu0 / (1 + z)

/-- `nu_to_wavel` in metres (`cosmo.py` lines 268-278). -/
noncomputable def nu_to_wavel (nu : ℝ) : ℝ := c * 10 ^ 3 / (nu * 10 ^ 6)

/-- `c_to_p` (`cosmo.py` lines 295-306). -/
noncomputable def c_to_p (cdist z : ℝ) : ℝ := cdist / (1 + z)

/-- `p_to_c` (`cosmo.py` lines 309-321). -/
noncomputable def p_to_c (pdist z : ℝ) : ℝ := pdist * (1 + z)

/-- `hubble_parameter` (`cosmo.py` lines 323-328). -/
noncomputable def hubble_parameter (k : Const) (z : ℝ) : ℝ :=
  k.H0 * Real.sqrt (k.omega0 * (1 + z) ^ 3 + k.lam)

/-! ### Distances -/

/-- A NumPy vector of integers or of floats.  A scalar is a vector of length one
(`np.atleast_1d`); `outputify` (`helper_functions.py` lines 453-472) only removes that axis
again. -/
inductive Vec where
  | int (l : List ℤ)
  | float (l : List ℝ)

/-- Conversion of a float to an integer on assignment: towards zero. -/
noncomputable def trunc (x : ℝ) : ℤ := if 0 ≤ x then ⌊x⌋ else ⌈x⌉

/-- `out = np.zeros_like(v); out[i] = f(v[i])`: entries keep the type of `v`. -/
noncomputable def Vec.fill (f : ℝ → ℝ) : Vec → Vec
  | .int l => .int (l.map fun (n : ℤ) => trunc (f n))
  | .float l => .float (l.map f)

/-- `Ez_func` (`cosmo.py` line 143). -/
noncomputable def ezFunc (k : Const) (x : ℝ) : ℝ := 1 / Real.sqrt (k.omega0 * (1 + x) ^ 3 + k.lam)

/-- The value stored for one redshift (`cosmo.py` line 144). -/
noncomputable def cdist (k : Const) (z : ℝ) : ℝ := c / k.H0 * ∫ x in (0 : ℝ)..z, ezFunc k x

/-- `z_to_cdist` (`cosmo.py` lines 131-145). -/
noncomputable def z_to_cdist (k : Const) (z : Vec) : Vec := z.fill (cdist k)

/-- `Ea_func` (`cosmo.py` line 188). -/
noncomputable def eaFunc (k : Const) (x : ℝ) : ℝ :=
  1 / x / Real.sqrt (k.omega0 * (x ^ 3)⁻¹ + k.lam)

/-- The value stored for one redshift (`cosmo.py` lines 185 and 189). -/
noncomputable def age (k : Const) (z : ℝ) : ℝ := 1 / k.H0 * ∫ x in (0 : ℝ)..1 / (1 + z), eaFunc k x

/-- `(const.kms/const.Mpc)**-1/const.yr_in_sec/1e9` (`cosmo.py` line 190,
`const.py` lines 13-14, 33-34). -/
noncomputable def ageUnit : ℝ := (10 ^ 5 / (10 ^ 6 * (3086 * 10 ^ 15)))⁻¹ / 31540000 / 10 ^ 9

/-- `z_to_age` (`cosmo.py` lines 175-190); multiplying by a float gives floats. -/
noncomputable def z_to_age (k : Const) (z : Vec) : List ℝ :=
  match z.fill (age k) with
  | .int l => l.map fun (n : ℤ) => (n : ℝ) * ageUnit
  | .float l => l.map fun x => x * ageUnit

/-- `denom` of `_ldist` (`cosmo.py` lines 81-84). -/
noncomputable def ldistDenom (k : Const) (z : ℝ) : ℝ :=
  (1 + z) ^ 2 * (1 + 2 * (k.q0 + k.lam) * z) - z * (2 + z) * k.lam

/-- `_ldist` for the floats `quad` passes (`cosmo.py` lines 90-94). -/
noncomputable def ldist (k : Const) (z : ℝ) : ℝ :=
  if 0 ≤ ldistDenom k z then 1 / Real.sqrt (ldistDenom k z) else 0

/-- The closed form for a vanishing cosmological constant (`cosmo.py` lines 112-114). -/
noncomputable def mattig (k : Const) (z : ℝ) : ℝ :=
  let denom := Real.sqrt (1 + 2 * k.q0 * z) + 1 + k.q0 * z
  (c * z / k.H0) * (1 + z * (1 - k.q0) / denom)

/-- `luminosity_distance` at one redshift with the default `k=0` (`cosmo.py` lines 97-128).
The branches for other `k` are not modelled. -/
noncomputable def luminosity_distance (k : Const) (z : ℝ) : ℝ :=
  if k.lam = 0 then mattig k z
  else
    let dlum := if z ≤ 0 then 0 else ∫ x in (0 : ℝ)..z, ldist k x
    c * (1 + z) * dlum / k.H0

/-- `angular_size` in arc seconds (`cosmo.py` lines 192-207). -/
noncomputable def angular_size (k : Const) (dl z : ℝ) : ℝ :=
  180 / (31415 / 10000) * 3600 * dl * (1 + z) ^ 2 / (1000 * luminosity_distance k z)

/-- `angular_size_comoving` in degrees (`cosmo.py` lines 209-224). -/
noncomputable def angular_size_comoving (k : Const) (cMpc z : ℝ) : ℝ :=
  angular_size k (c_to_p cMpc z * 1000) z / 60 / 60

/-- `deg_to_cdist` (`cosmo.py` lines 227-239). -/
noncomputable def deg_to_cdist (k : Const) (deg z : ℝ) : ℝ := deg / angular_size_comoving k 1 z

/-! ### Redshift of a distance -/

/-- `precalc_table_z` (`cosmo.py` line 11). -/
noncomputable def tableZ : List ℝ :=
  ((List.range 50).map fun (i : ℕ) => (i : ℝ) * (2 / 100)) ++
    (List.range 200).map fun (i : ℕ) => (10 : ℝ) ^ (2 * (i : ℝ) / 199)

/-- `precalc_table_cdist` (`cosmo.py` lines 12-74), in units of `1e-8`. -/
def tableCdist : List ℕ := [
   0, 8536535896, 17002599243, 25397218821, 33719503137, 41968640492,
   50143898711, 58244624565, 66270242885, 74220255458, 82094239486, 89891846116,
   97612798514, 105256889863, 112823981190, 120313999048, 127726933099, 135062833590,
   142321808737, 149504022185, 156609690194, 163639079025, 170592502222, 177470317923,
   184272926195, 191000766401, 197654314618, 204234081097, 210740607797, 217174465977,
   223536253863, 229826594397, 236046133057, 242195535773, 248275486918, 254286687389,
   260229852779, 266105711631, 271915003781, 277658478786, 283336894438, 288951015363,
   294501611692, 299989457822, 305415331250, 310780010351, 316084277580, 321328912548,
   326514694906, 331642402623, 336712811226, 342576323848, 348498198942, 354477422924,
   360512931532, 366603610672, 372748297919, 378945783628, 385194812421, 391494084751,
   397842258571, 404237951119, 410679740797, 417166169149, 423695742925, 430266936216,
   436878192668, 443527927750, 450214531073, 456936368757, 463691786118, 470479108946,
   477296647586, 484142698316, 491015546037, 497913466689, 504834729652, 511777600111,
   518740341390, 525721217235, 532718494051, 539730443082, 546755342517, 553791479547,
   560837152327, 567890672746, 574950364896, 582014571617, 589081653062, 596149988992,
   603217980244, 610284050111, 617346645625, 624404238757, 631455327524, 638498437005,
   645532120274, 652554960861, 659565567269, 666562582636, 673544679581, 680510562103,
   687458966023, 694388659351, 701298442588, 708187148960, 715053644589, 721896828601,
   728715635902, 735509026615, 742276001300, 749015591046, 755726859681, 762408903586,
   769060851460, 775681864061, 782271133900, 788827884918, 795351376147, 801840885522,
   808295732541, 814715262911, 821098851714, 827445902935, 833755848979, 840028150177,
   846262299146, 852457801124, 858614201412, 864731066739, 870807989107, 876844585245,
   882840496057, 888795386081, 894708948790, 900580882742, 906410925370, 912198830059,
   917944371043, 923647342869, 929307559857, 934924865046, 940499092404, 946030116256,
   951517832610, 956962142812, 962362968515, 967720257775, 973033944157, 978304000267,
   983530418168, 988713190876, 993852329263, 998947868761, 1003999824290, 1009008249500,
   1013973216028, 1018894791529, 1023773059636, 1028608127025, 1033400073733, 1038149018974,
   1042855099169, 1047518441427, 1052139200307, 1056717500485, 1061253505099, 1065747393231,
   1070199331917, 1074609514682, 1078978095337, 1083305292603, 1087591300168, 1091836323508,
   1096040590215, 1100204272373, 1104327628018, 1108410873513, 1112454256296, 1116457966547,
   1120422280202, 1124347430133, 1128233679709, 1132081233011, 1135890380788, 1139661368616,
   1143394472308, 1147089906158, 1150747972977, 1154368927684, 1157953043981, 1161500577464,
   1165011806327, 1168487003285, 1171926447527, 1175330401900, 1178699149311, 1182032972719,
   1185332137140, 1188596928129, 1191827625131, 1195024512040, 1198187858385, 1201317950408,
   1204415072832, 1207479495382, 1210511504387, 1213511384232, 1216479404351, 1219415850168,
   1222321004701, 1225195136655, 1228038529678, 1230851464473, 1233634208696, 1236387043424,
   1239110246150, 1241804083312, 1244468832668, 1247104767629, 1249712153436, 1252291266416,
   1254842367179, 1257365727854, 1259861615879, 1262330290476, 1264772021033, 1267187062361,
   1269575679425, 1271938131816, 1274274673137, 1276585563654, 1278871052630, 1281131398206,
   1283366845630, 1285577648483, 1287764054123, 1289926307071, 1292064653640, 1294179334410,
   1296270592637, 1298338665203, 1300383791968, 1302406206321, 1304406144437, 1306383836398,
   1308339514428, 1310273405492, 1312185737610, 1314076734823]

/-- `interp1d(x, y, kind='cubic', ...)`: fewer than four entries raise.  The spline itself
is a parameter. -/
def cubic (spline : List (ℝ × ℝ) → ℝ → ℝ) (pts : List (ℝ × ℝ)) : Except String (ℝ → ℝ) :=
  if pts.length < 4 then .error "x and y arrays must have at least 4 entries" else .ok (spline pts)

/-- The first `func` of `cdist_to_z` (`cosmo.py` line 164). -/
noncomputable def firstGuess (spline : List (ℝ × ℝ) → ℝ → ℝ) : ℝ → ℝ :=
  spline ((tableCdist.map fun (n : ℕ) => (n : ℝ) / 10 ^ 8).zip tableZ)

/-- `table_z` of `cdist_to_z` (`cosmo.py` lines 165-168) for distances between `lo` and `hi`. -/
noncomputable def windowZ (spline : List (ℝ × ℝ) → ℝ → ℝ) (lo hi : ℝ) : List ℝ :=
  tableZ.filter fun z =>
    decide (firstGuess spline lo - 1 < z) && decide (z < firstGuess spline hi + 1)

/-- The entries of a vector as floats. -/
noncomputable def Vec.floats : Vec → List ℝ
  | .int l => l.map fun (n : ℤ) => (n : ℝ)
  | .float l => l

/-- `cdist_to_z` (`cosmo.py` lines 148-173).  `dist.min()` of an empty array raises. -/
noncomputable def cdist_to_z (k : Const) (spline : List (ℝ × ℝ) → ℝ → ℝ) (dist : Vec) :
    Except String Vec :=
  match dist.floats.min?, dist.floats.max? with
  | some lo, some hi => do
    let zs := windowZ spline lo hi
    let func ← cubic spline ((zs.map (cdist k)).zip zs)
    pure (dist.fill func)
  | _, _ => .error "zero-size array to reduction operation minimum which has no identity"

/-! ### Masses and temperatures -/

/-- `Mgrid_2_Msolar` (`usefuls.py` lines 17-18). -/
noncomputable def Mgrid_2_Msolar (v : Conv) (m : ℝ) : ℝ := m * (v.mGrid * solarMassesPerGram)

/-- `Msolar_2_Mgrid` (`usefuls.py` lines 20-21). -/
noncomputable def Msolar_2_Mgrid (v : Conv) (m : ℝ) : ℝ := m / (v.mGrid * solarMassesPerGram)

/-- `gridmass_to_msol` (`conv.py` lines 97-107). -/
noncomputable def gridmass_to_msol (v : Conv) (m : ℝ) : ℝ :=
  Real.logb 10 (m * v.mGrid * solarMassesPerGram)

/-- `Omz` (`cosmo.py` lines 341-344 and 363-366). -/
noncomputable def omz (k : Const) (z : ℝ) : ℝ :=
  let Om : ℝ := k.omega0
  let Ol : ℝ := k.omegaL
  let Ok := 1 - Om - Ol
  Om * (1 + z) ^ 3 / (Om * (1 + z) ^ 3 + Ol + Ok * (1 + z) ^ 2)

/-- `Delc` (`cosmo.py` lines 345-346). -/
noncomputable def delc (d : ℝ) : ℝ := 18 * Real.pi ^ 2 + 82 * d - 39 * d ^ 2

/-- `conv_fact` (`cosmo.py` lines 347-348). -/
noncomputable def convFact (k : Const) (z : ℝ) : ℝ :=
  19800 * ((6 / 10) / (6 / 10)) *
    (k.omega0 * delc (omz k z - 1) / omz k z / 18 / Real.pi ^ 2) ^ ((1 : ℝ) / 3) * ((1 + z) / 10)

/-- `Tvir_to_M` (`cosmo.py` lines 330-350). -/
noncomputable def Tvir_to_M (k : Const) (tvir z : ℝ) : ℝ :=
  10 ^ 8 / k.h * (tvir / convFact k z) ^ ((3 : ℝ) / 2)

/-- `M_to_Tvir` (`cosmo.py` lines 352-372). -/
noncomputable def M_to_Tvir (k : Const) (m z : ℝ) : ℝ :=
  convFact k z * (m * k.h / 10 ^ 8) ^ ((2 : ℝ) / 3)

/-! ### Particles -/

/-- `np.cbrt`. -/
noncomputable def cbrt (x : ℝ) : ℝ :=
  if 0 ≤ x then x ^ ((1 : ℝ) / 3) else -((-x) ^ ((1 : ℝ) / 3))

/-- `ParticleMass_to_ParticleNumber` (`nbody_tools.py` lines 27-37); `rho` is
`critical_density0*Om0` in solar masses per Mpc³. -/
noncomputable def ParticleMass_to_ParticleNumber (rho Lbox m : ℝ) : ℝ := cbrt (rho / m) * Lbox

/-- `particle_number_to_particle_mass` (`nbody_tools.py` lines 43-50). -/
noncomputable def particle_number_to_particle_mass (rho Lbox : ℝ) (each total : Option ℝ) :
    Except String ℝ :=
  match each, total with
  | some n, _ => .ok (rho * (Lbox / n) ^ 3)
  | none, some t => .ok (rho * (Lbox / cbrt t) ^ 3)
  | none, none => .error "TypeError: np.cbrt(None)"

/-- `halo_mass_to_particle_number` (`nbody_tools.py` lines 39-41). -/
noncomputable def halo_mass_to_particle_number (rho Lbox haloMass inHalo : ℝ) : Except String ℝ :=
  particle_number_to_particle_mass rho Lbox (some (haloMass / inHalo)) none

/-! ### Brightness temperature and flux -/

/-- `if not boxsize: boxsize = conv.LB` (`radio_telescope_sensitivity.py` line 203). -/
noncomputable def boxsizeOr (LB : ℝ) : Option ℝ → ℝ
  | none => LB
  | some b => if b = 0 then LB else b

/-- `if not ncells: ncells = array.shape[0]`
(`radio_telescope_sensitivity.py` lines 229 and 250). -/
def ncellsOr (shape0 : ℕ) : Option ℕ → ℕ
  | none => shape0
  | some n => if n = 0 then shape0 else n

/-- `kelvin_jansky_conversion` (`radio_telescope_sensitivity.py` lines 187-211). -/
noncomputable def kelvin_jansky_conversion (k : Const) (v : Conv) (ncells : ℕ) (z : ℝ)
    (boxsize : Option ℝ) : ℝ :=
  let boxsize_pp := boxsizeOr v.LB boxsize / cdist k z
  let omega_pixel := boxsize_pp ^ 2 / ncells ^ 2
  let mktomujy_nuc := 2 * kbSI / cLightSI / cLightSI / janskyToWatt *
    (z_to_nu z * 10 ^ 6) ^ 2 * 10 ^ 3
  mktomujy_nuc * omega_pixel

/-- `jansky_2_kelvin` (`radio_telescope_sensitivity.py` lines 213-232); the array has `shape0`
entries along its first axis. -/
noncomputable def jansky_2_kelvin {ι : Type*} (k : Const) (v : Conv) (shape0 : ℕ) (array : ι → ℝ)
    (z : ℝ) (boxsize : Option ℝ) (ncells : Option ℕ) : ι → ℝ := fun i =>
  array i / kelvin_jansky_conversion k v (ncellsOr shape0 ncells) z boxsize

/-- `kelvin_2_jansky` (`radio_telescope_sensitivity.py` lines 234-252). -/
noncomputable def kelvin_2_jansky {ι : Type*} (k : Const) (v : Conv) (shape0 : ℕ) (array : ι → ℝ)
    (z : ℝ) (boxsize : Option ℝ) (ncells : Option ℕ) : ι → ℝ := fun i =>
  array i * kelvin_jansky_conversion k v (ncellsOr shape0 ncells) z boxsize

end Verif.Conversions

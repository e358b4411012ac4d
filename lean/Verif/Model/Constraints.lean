import Verif.Model.Ident
import Mathlib.Data.Int.Notation

/-!
# The compilation of constraints on reionisation

`compare_constraints.py` keeps measurements of the neutral fraction of hydrogen and the histories of models.  The tables are generated from the text of the file; redshifts are
given in units of 0.0001 and neutral fractions in units of 10⁻¹⁵, which makes them whole numbers (a simplification: Python has binary fractions in place of the decimal ones).
-/

namespace Verif.Constraints

/-- What a number in the compilation is (`compare_constraints.py` lines 18-181): a measurement, or an upper or lower limit. -/
inductive Kind where
  | measurement
  | upper
  | lower
  deriving DecidableEq

/-- One entry (`compare_constraints.py` lines 18-20): the reference, the redshift and its two errors, the value and its two errors, the kind.  The method and the comment are
left out. -/
structure Entry where
  source : Ident
  z : Int
  zLow : Int
  zHigh : Int
  value : Int
  low : Int
  high : Int
  kind : Kind

/-- `neutral_fraction_constraints` (`compare_constraints.py` lines 15-181). -/
def entries : List Entry := [
  ⟨n!"McGreer+2011", 55000, (-5000), 0, 200000000000000, 0, 0, .upper⟩,
  ⟨n!"McGreer+2011", 61000, 0, 0, 800000000000000, 0, 0, .upper⟩,
  ⟨n!"McGreer+2015", 56000, 0, 0, 40000000000000, 0, 50000000000000, .upper⟩,
  ⟨n!"McGreer+2015", 59000, 0, 0, 60000000000000, 0, 50000000000000, .upper⟩,
  ⟨n!"Jin+2023", 63000, 0, 0, 790000000000000, (-40000000000000), 40000000000000, .upper⟩,
  ⟨n!"Jin+2023", 65000, 0, 0, 870000000000000, (-30000000000000), 30000000000000, .upper⟩,
  ⟨n!"Jin+2023", 67000, 0, 0, 940000000000000, (-90000000000000), 60000000000000, .upper⟩,
  ⟨n!"Greig+2022", 70000, 0, 0, 640000000000000, (-170000000000000), 210000000000000, .measurement⟩,
  ⟨n!"Greig+2022", 75100, 0, 0, 270000000000000, (-230000000000000), 190000000000000, .measurement⟩,
  ⟨n!"Greig+2022", 70800, 0, 0, 440000000000000, (-240000000000000), 230000000000000, .measurement⟩,
  ⟨n!"Greig+2022", 75400, 0, 0, 310000000000000, (-190000000000000), 180000000000000, .measurement⟩,
  ⟨n!"Wang+2020", 70000, 0, 0, 700000000000000, (-230000000000000), 200000000000000, .measurement⟩,
  ⟨n!"Yang+2020a", 75100, 0, 0, 390000000000000, (-130000000000000), 220000000000000, .measurement⟩,
  ⟨n!"Greig+2017b", 70800, 0, 0, 400000000000000, (-190000000000000), 210000000000000, .measurement⟩,
  ⟨n!"Greig+2019", 75400, 0, 0, 210000000000000, (-190000000000000), 170000000000000, .measurement⟩,
  ⟨n!"Umeda+2024", 71200, (-800), 600, 530000000000000, (-470000000000000), 180000000000000, .measurement⟩,
  ⟨n!"Umeda+2024", 74400, (-2400), 3400, 650000000000000, (-340000000000000), 270000000000000, .measurement⟩,
  ⟨n!"Umeda+2024", 82800, (-4400), 4100, 910000000000000, (-220000000000000), 90000000000000, .measurement⟩,
  ⟨n!"Umeda+2024", 99100, (-11500), 14900, 920000000000000, (-100000000000000), 80000000000000, .measurement⟩,
  ⟨n!"Hsiao+2024", 101700, 0, 0, 900000000000000, 0, 0, .lower⟩,
  ⟨n!"Curtis-Lake+2023", 114800, (-800), 300, 840000000000000, (-300000000000000), 160000000000000, .measurement⟩,
  ⟨n!"Mason+2025", 65000, 0, 0, 330000000000000, (-270000000000000), 180000000000000, .measurement⟩,
  ⟨n!"Mason+2025", 93000, 0, 0, 640000000000000, (-230000000000000), 170000000000000, .measurement⟩,
  ⟨n!"Bosman+2022", 50000, 0, 0, 24460000000, (-510000000), 2050000000, .measurement⟩,
  ⟨n!"Bosman+2022", 51000, 0, 0, 26510000000, (-750000000), 1290000000, .measurement⟩,
  ⟨n!"Bosman+2022", 52000, 0, 0, 29880000000, (-850000000), 1190000000, .measurement⟩,
  ⟨n!"Bosman+2022", 53000, 0, 0, 30000000000, (-1250000000), 4660000000, .measurement⟩,
  ⟨n!"Bosman+2022", 54000, 0, 0, 34980000000, (-1660000000), 0, .lower⟩,
  ⟨n!"Bosman+2022", 55000, 0, 0, 43280000000, (-3120000000), 0, .lower⟩,
  ⟨n!"Bosman+2022", 56000, 0, 0, 56270000000, (-9970000000), 0, .lower⟩,
  ⟨n!"Bosman+2022", 57000, 0, 0, 65440000000, (-5540000000), 0, .lower⟩,
  ⟨n!"Bosman+2022", 58000, 0, 0, 70870000000, (-6860000000), 0, .lower⟩,
  ⟨n!"Fan+2006", 50300, 0, 0, 55000000000, (-14200000000), 16500000000, .measurement⟩,
  ⟨n!"Fan+2006", 52500, 0, 0, 67000000000, (-20700000000), 24400000000, .measurement⟩,
  ⟨n!"Fan+2006", 54500, 0, 0, 66000000000, (-24700000000), 30100000000, .measurement⟩,
  ⟨n!"Fan+2006", 56500, 0, 0, 88000000000, (-36500000000), 46000000000, .measurement⟩,
  ⟨n!"Fan+2006", 58500, 0, 0, 130000000000, (-40800000000), 49000000000, .lower⟩,
  ⟨n!"Fan+2006", 61000, 0, 0, 430000000000, (-300000000000), 300000000000, .lower⟩,
  ⟨n!"Yang+2020", 54000, 0, 0, 56300000000, (-12300000000), 56300000000, .measurement⟩,
  ⟨n!"Yang+2020", 56000, 0, 0, 75900000000, (-61500000000), 16200000000, .measurement⟩,
  ⟨n!"Yang+2020", 58000, 0, 0, 88500000000, (-12800000000), 17600000000, .measurement⟩,
  ⟨n!"Yang+2020", 60000, 0, 0, 113000000000, (-18800000000), 200000000000, .lower⟩,
  ⟨n!"Yang+2020", 62000, 0, 0, 103000000000, (-106000000000), 200000000000, .lower⟩,
  ⟨n!"Spina+2024", 56000, 0, 0, 190000000000000, (-70000000000000), 70000000000000, .measurement⟩,
  ⟨n!"Spina+2024", 59000, 0, 0, 440000000000000, 0, 0, .upper⟩,
  ⟨n!"Zhu+2024", 58000, (-2000), 2000, 61000000000000, (-39000000000000), 39000000000000, .lower⟩,
  ⟨n!"Mason+2019 (68% CI)", 80000, 0, 0, 760000000000000, 0, 0, .lower⟩,
  ⟨n!"Mason+2019 (95% CI)", 80000, 0, 0, 460000000000000, 0, 0, .lower⟩,
  ⟨n!"Mason+2018", 70000, 0, 0, 590000000000000, (-150000000000000), 110000000000000, .measurement⟩,
  ⟨n!"Whitler+2020", 70000, 0, 0, 550000000000000, (-130000000000000), 110000000000000, .measurement⟩,
  ⟨n!"Jung+2020", 76000, 0, 0, 490000000000000, (-190000000000000), 190000000000000, .measurement⟩,
  ⟨n!"Bolan+2022 (68% CI)", 76000, (-6000), 6000, 830000000000000, (-110000000000000), 80000000000000, .measurement⟩,
  ⟨n!"Bolan+2022 (68% CI)", 67000, (-2000), 2000, 250000000000000, 0, 0, .upper⟩,
  ⟨n!"Bolan+2022 (95% CI)", 76000, (-6000), 6000, 830000000000000, (-210000000000000), 110000000000000, .measurement⟩,
  ⟨n!"Bolan+2022 (95% CI)", 67000, (-2000), 2000, 440000000000000, 0, 0, .upper⟩,
  ⟨n!"Bruton+2023", 106000, 0, 0, 880000000000000, 0, 0, .upper⟩,
  ⟨n!"Nakane+2024", 70000, 0, 0, 790000000000000, 0, 0, .upper⟩,
  ⟨n!"Nakane+2024", 80000, 0, 0, 620000000000000, (-360000000000000), 150000000000000, .measurement⟩,
  ⟨n!"Nakane+2024", 101000, (-11000), 29000, 930000000000000, (-70000000000000), 40000000000000, .measurement⟩,
  ⟨n!"Tang+2024", 70000, (-5000), 10000, 480000000000000, (-220000000000000), 150000000000000, .measurement⟩,
  ⟨n!"Tang+2024", 88000, (-8000), 12000, 810000000000000, (-240000000000000), 120000000000000, .measurement⟩,
  ⟨n!"Tang+2024", 110000, (-10000), 23000, 890000000000000, (-210000000000000), 80000000000000, .measurement⟩,
  ⟨n!"Jones+2025", 70000, (-5000), 5000, 640000000000000, (-210000000000000), 130000000000000, .measurement⟩,
  ⟨n!"Inoue+2018", 73000, 0, 0, 500000000000000, (-300000000000000), 100000000000000, .measurement⟩,
  ⟨n!"Morales+2021", 66000, 0, 0, 80000000000000, (-50000000000000), 80000000000000, .measurement⟩,
  ⟨n!"Morales+2021", 70000, 0, 0, 280000000000000, (-50000000000000), 50000000000000, .measurement⟩,
  ⟨n!"Morales+2021", 73000, 0, 0, 830000000000000, (-70000000000000), 60000000000000, .measurement⟩,
  ⟨n!"Wold+2022", 69000, 0, 0, 330000000000000, 0, 0, .upper⟩,
  ⟨n!"Umeda+2025", 57000, 0, 0, 50000000000000, 0, 0, .upper⟩,
  ⟨n!"Umeda+2025", 66000, 0, 0, 150000000000000, (-80000000000000), 100000000000000, .measurement⟩,
  ⟨n!"Umeda+2025", 70000, 0, 0, 180000000000000, (-120000000000000), 140000000000000, .measurement⟩,
  ⟨n!"Umeda+2025", 73000, 0, 0, 750000000000000, (-130000000000000), 90000000000000, .measurement⟩,
  ⟨n!"Kageura+2025", 59000, (-4000), 4900, 170000000000000, (-160000000000000), 230000000000000, .measurement⟩,
  ⟨n!"Kageura+2025", 69600, (-4200), 5300, 630000000000000, (-280000000000000), 180000000000000, .measurement⟩,
  ⟨n!"Kageura+2025", 84100, (-9000), 10200, 790000000000000, (-210000000000000), 130000000000000, .measurement⟩,
  ⟨n!"Kageura+2025", 110000, (-13800), 31800, 880000000000000, (-130000000000000), 110000000000000, .measurement⟩,
  ⟨n!"Sobacchi+2015", 70000, 0, 0, 500000000000000, 0, 0, .upper⟩,
  ⟨n!"Ouchi+2018", 66000, 0, 0, 150000000000000, (-150000000000000), 150000000000000, .measurement⟩,
  ⟨n!"Umeda+2025 (clustering)", 57000, 0, 0, 60000000000000, (-30000000000000), 120000000000000, .measurement⟩,
  ⟨n!"Umeda+2025 (clustering)", 66000, 0, 0, 210000000000000, (-140000000000000), 190000000000000, .measurement⟩]

/-- The history of a model (`compare_constraints.py` lines 198-219): its redshifts and its values. -/
structure History where
  name : Ident
  zs : List Int
  values : List Int

/-- `Source1_SinkA` of `Giri+2024` (`compare_constraints.py` lines 198-219, with the redshifts of lines 188-197). -/
def source1SinkA : History where
  name := n!"Source1_SinkA"
  zs := [53480, 53920, 54360, 54800, 55260, 55720, 56200, 56680, 57170, 57670, 58170, 58690, 59220, 59760, 60300, 60860, 61430, 62010, 62610, 63210, 63830,
    64460, 65110, 65770, 66440, 67130, 67840, 68560, 69300, 70060, 70830, 71620, 72440, 73270, 74120, 75000, 75900, 76830, 77780, 78750, 79760, 80790, 81850,
    82940, 84070, 85230, 86430, 87670, 88950, 90270, 91630, 93040, 94500, 96020, 97590, 99220, 100910, 102670, 104510, 106420, 110480, 112650, 114920, 117300,
    119800, 122420, 125180, 128080, 131150, 134400, 137830, 141480, 145360, 149500]
  values := [0, 0, 0, 0, 0, 1000000000000, 1000000000000, 2000000000000, 4000000000000, 6000000000000, 8000000000000, 12000000000000, 17000000000000,
    23000000000000, 31000000000000, 40000000000000, 51000000000000, 64000000000000, 79000000000000, 96000000000000, 114000000000000, 135000000000000,
    157000000000000, 181000000000000, 207000000000000, 234000000000000, 262000000000000, 291000000000000, 321000000000000, 352000000000000, 383000000000000,
    414000000000000, 446000000000000, 477000000000000, 508000000000000, 538000000000000, 568000000000000, 598000000000000, 626000000000000, 653000000000000,
    680000000000000, 705000000000000, 729000000000000, 752000000000000, 774000000000000, 794000000000000, 814000000000000, 832000000000000, 848000000000000,
    864000000000000, 879000000000000, 892000000000000, 905000000000000, 916000000000000, 926000000000000, 936000000000000, 945000000000000, 952000000000000,
    959000000000000, 966000000000000, 976000000000000, 980000000000000, 984000000000000, 987000000000000, 990000000000000, 992000000000000, 994000000000000,
    995000000000000, 996000000000000, 997000000000000, 998000000000000, 999000000000000, 999000000000000, 999000000000000]

/-- `Source1_SinkB` of `Giri+2024` (`compare_constraints.py` lines 198-219, with the redshifts of lines 188-197). -/
def source1SinkB : History where
  name := n!"Source1_SinkB"
  zs := [53480, 53920, 54360, 54800, 55260, 55720, 56200, 56680, 57170, 57670, 58170, 58690, 59220, 59760, 60300, 60860, 61430, 62010, 62610, 63210, 63830,
    64460, 65110, 65770, 66440, 67130, 67840, 68560, 69300, 70060, 70830, 71620, 72440, 73270, 74120, 75000, 75900, 76830, 77780, 78750, 79760, 80790, 81850,
    82940, 84070, 85230, 86430, 87670, 88950, 90270, 91630, 93040, 94500, 96020, 97590, 99220, 100910, 102670, 104510, 106420, 110480, 112650, 114920, 117300,
    119800, 122420, 125180, 128080, 131150, 134400, 137830, 141480, 145360, 149500]
  values := [0, 0, 0, 0, 0, 0, 0, 0, 0, 0, 1000000000000, 2000000000000, 3000000000000, 4000000000000, 6000000000000, 9000000000000, 14000000000000,
    20000000000000, 29000000000000, 40000000000000, 53000000000000, 70000000000000, 89000000000000, 111000000000000, 137000000000000, 165000000000000,
    195000000000000, 228000000000000, 262000000000000, 298000000000000, 335000000000000, 372000000000000, 409000000000000, 446000000000000, 482000000000000,
    517000000000000, 551000000000000, 584000000000000, 615000000000000, 645000000000000, 674000000000000, 700000000000000, 726000000000000, 750000000000000,
    772000000000000, 793000000000000, 813000000000000, 831000000000000, 848000000000000, 864000000000000, 879000000000000, 892000000000000, 905000000000000,
    916000000000000, 926000000000000, 936000000000000, 945000000000000, 952000000000000, 959000000000000, 966000000000000, 976000000000000, 980000000000000,
    984000000000000, 987000000000000, 990000000000000, 992000000000000, 994000000000000, 995000000000000, 996000000000000, 997000000000000, 998000000000000,
    999000000000000, 999000000000000, 999000000000000]

/-- `Thesan-1` of `Garaldi+2022` (`compare_constraints.py` lines 221-254). -/
def thesan1 : History where
  name := n!"Thesan-1"
  zs := [161067, 157173, 154543, 151623, 149080, 145858, 143014, 146177, 143327, 140838, 138389, 135681, 133462, 131133, 128983, 126726, 124610, 122865, 120574,
    118585, 116886, 115050, 113051, 110929, 109331, 107755, 105961, 104370, 102802, 101425, 100065, 106228, 104663, 102917, 101539, 100178, 98834, 97395, 95976,
    94523, 93194, 91935, 90588, 89539, 88048, 87000, 85964, 84841, 83780, 82683, 81763, 80759, 79904, 79721, 78875, 77926, 77008, 76101, 75355, 74616, 73819,
    73072, 72564, 71828, 71036, 70293, 69659, 69070, 68446, 67936, 67370, 66779, 66279, 65686, 65108, 64610, 64097, 63587, 63108, 62577, 62096, 61600, 61125,
    60636, 60168, 59631, 59099, 58676, 58221, 57751, 57337, 56873, 56472, 56023, 55552, 55118, 55168, 54587]
  values := [999980000000000, 999570000000000, 998840000000000, 997860000000000, 996860000000000, 995410000000000, 993910000000000, 995570000000000,
    994080000000000, 992570000000000, 990810000000000, 988630000000000, 986490000000000, 983920000000000, 981240000000000, 978030000000000, 974570000000000,
    971190000000000, 966380000000000, 961620000000000, 957130000000000, 951650000000000, 945260000000000, 937680000000000, 931270000000000, 924300000000000,
    915670000000000, 907240000000000, 898410000000000, 889690000000000, 880650000000000, 917120000000000, 908850000000000, 899060000000000, 890380000000000,
    881370000000000, 872000000000000, 861530000000000, 850630000000000, 838170000000000, 825990000000000, 813980000000000, 800020000000000, 788350000000000,
    771000000000000, 758510000000000, 744840000000000, 729300000000000, 713500000000000, 696560000000000, 681610000000000, 664540000000000, 649210000000000,
    645780000000000, 629820000000000, 610910000000000, 591930000000000, 572030000000000, 554930000000000, 536990000000000, 517220000000000, 497970000000000,
    484420000000000, 464320000000000, 441750000000000, 419560000000000, 399690000000000, 380450000000000, 359680000000000, 342580000000000, 323260000000000,
    302900000000000, 285530000000000, 264800000000000, 244410000000000, 226690000000000, 208310000000000, 190200000000000, 173330000000000, 154980000000000,
    138750000000000, 122460000000000, 107570000000000, 93002000000000, 79871000000000, 65957000000000, 53381000000000, 44333000000000, 35604000000000,
    27921000000000, 22183000000000, 16721000000000, 12651000000000, 8851800000000, 5862000000000, 3896500000000, 4092000000000, 2180500000000]

/-- `Evolving IMF` of `Hutter+2025` (`compare_constraints.py` lines 256-284). -/
def evolvingIMF : History where
  name := n!"Evolving IMF"
  zs := [245800, 241800, 237800, 233800, 229800, 225800, 221800, 217800, 213800, 209800, 205800, 201800, 197800, 193800, 189800, 185800, 181800, 177800, 173800,
    169800, 165500, 161200, 156900, 153100, 149500, 146000, 142400, 139300, 136000, 132700, 129700, 126600, 123500, 120500, 117700, 115000, 112200, 109600,
    107000, 104400, 101900, 99400, 97100, 94700, 92400, 90100, 87900, 85800, 83700, 81700, 79600, 77600, 75800, 73900, 72000, 70300, 68500, 66700, 65100, 63400,
    61800, 60200, 58700, 57200, 55700, 54300, 52900, 51500, 50200, 48800, 47500, 46300]
  values := [1000000000000000, 999999999000000, 999999989000000, 999999955000000, 999999948000000, 999999918000000, 999999873000000, 999999792000000,
    999999611000000, 999999030000000, 999998120000000, 999997131000000, 999993659000000, 999989256000000, 999980020000000, 999961955000000, 999932183000000,
    999880943000000, 999794082000000, 999659002000000, 999434077000000, 999117130000000, 998656335000000, 998033456000000, 997331825000000, 996346031000000,
    995156165000000, 993709698000000, 992217135000000, 989834259000000, 987286104000000, 984567959000000, 980700140000000, 976375121000000, 971712772000000,
    966905593000000, 961269872000000, 954588734000000, 947890176000000, 939829943000000, 931157350000000, 921534531000000, 911145616000000, 899910151000000,
    886266564000000, 871077215000000, 853693858000000, 835219845000000, 813063187000000, 788926242000000, 758529765000000, 723348934000000, 684594648000000,
    641974837000000, 585098654000000, 517388558000000, 440246461000000, 325342912000000, 207879026000000, 103476118000000, 39396433800000, 14137617200000,
    2812415800000, 145386231000, 8015424190, 7572379810, 7707588900, 7285046710, 7093027020, 7249739430, 6489386030, 6761151850]

/-- `MAP model` of `Qin+2025` (`compare_constraints.py` lines 338-342, with the values of lines 286-337). -/
def mAPModel : History where
  name := n!"MAP model"
  zs := [152000, 148800, 145700, 142600, 139600, 136700, 133800, 131000, 128200, 125500, 122900, 120300, 117700, 115200, 112800, 110400, 108000, 105700, 103400,
    101200, 99000, 96900, 94800, 92700, 90700, 88700, 86800, 84900, 83000, 81200, 79400, 77700, 76000, 74300, 72600, 71000, 69400, 67800, 66300, 64800, 63400,
    61900, 60500, 59100, 57800, 56400, 55100, 53900]
  values := [990000000000000, 990000000000000, 990000000000000, 980000000000000, 980000000000000, 980000000000000, 970000000000000, 970000000000000,
    960000000000000, 960000000000000, 950000000000000, 940000000000000, 930000000000000, 920000000000000, 910000000000000, 900000000000000, 890000000000000,
    870000000000000, 860000000000000, 840000000000000, 820000000000000, 800000000000000, 770000000000000, 750000000000000, 720000000000000, 700000000000000,
    670000000000000, 640000000000000, 610000000000000, 570000000000000, 540000000000000, 510000000000000, 470000000000000, 440000000000000, 400000000000000,
    370000000000000, 330000000000000, 290000000000000, 260000000000000, 220000000000000, 190000000000000, 150000000000000, 110000000000000, 80000000000000,
    50000000000000, 30000000000000, 10000000000000, 0]

/-- The errors of the values of `MAP model` (`compare_constraints.py` line 340): the 16th and the 84th percentile minus the value. -/
def mAPModelErrors : List (Int × Int) :=
  [(0, 0), (0, 0), (0, 0), (0, 10000000000000), (0, 0), (0, 0), (0, 10000000000000), (0, 0), (0, 10000000000000), (0, 0), (0, 10000000000000), (0,
    10000000000000), (0, 10000000000000), (0, 10000000000000), (0, 10000000000000), (0, 10000000000000), (0, 10000000000000), (0, 20000000000000), (0,
    10000000000000), (0, 10000000000000), (0, 20000000000000), (0, 20000000000000), (0, 20000000000000), (0, 20000000000000), (0, 30000000000000), (0,
    20000000000000), (0, 20000000000000), (0, 20000000000000), (0, 20000000000000), (10000000000000, 30000000000000), (0, 30000000000000), (0, 30000000000000),
    (10000000000000, 30000000000000), (0, 30000000000000), (10000000000000, 40000000000000), (0, 30000000000000), (10000000000000, 30000000000000),
    (10000000000000, 40000000000000), (0, 30000000000000), (10000000000000, 30000000000000), (0, 20000000000000), (0, 20000000000000), (10000000000000,
    30000000000000), (0, 20000000000000), (0, 20000000000000), (0, 10000000000000), (0, 10000000000000), (0, 0)]

/-- `neutral_fraction_models` (`compare_constraints.py` lines 186-342). -/
def histories : List History := [source1SinkA, source1SinkB, thesan1, evolvingIMF, mAPModel]

end Verif.Constraints

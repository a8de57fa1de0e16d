import Verif.Num
import Mathlib.Analysis.SpecialFunctions.Pow.Real

/-! # Materials: `materials.py:57-654`

The index is the square root of a sum of quotients of the wavelength (in microns). The sum is modelled exactly, over any ordered
field; `(c/x)**2` (fused silica) is written `c ^ 2 / x ^ 2`. Python's `** .5` of a negative float is a complex number. -/

namespace RT

/-- The formula of an index. -/
inductive Formula where
  /-- `return 1.0` -/
  | air
  /-- `(1 + B1/(1-C1/x**2) + B2/(1-C2/x**2) + B3/(1-C3/x**2))**.5` -/
  | sellmeier (terms : List (ℚ × ℚ))
  /-- `(a + b*x**2 + c*x**-2 + d*x**-4 + e*x**-6 + f*x**-8)**.5` -/
  | laurent (a b c d e f : ℚ)
  deriving DecidableEq

/-- A subclass of `Material`: its class name, its formula and its Abbe number. -/
structure Glass where
  name : String
  formula : Formula
  abbe : ℚ

section
variable {K : Type} [Field K] [LinearOrder K]

/-- one more term of the sum, `B/(1-C/x**2)`; `ZeroDivisionError` at the resonance -/
def sellmeierTerm (x : K) (acc : Except PyErr K) (t : ℚ × ℚ) : Except PyErr K :=
  match acc with
  | .error e => .error e
  | .ok s => if (1 - (t.2 : K) / x ^ 2) = 0 then .error .zeroDivisionError else .ok (s + (t.1 : K) / (1 - (t.2 : K) / x ^ 2))

/-- What is under the square root, `wavelength` being accepted (not zero). -/
def Formula.square (f : Formula) (x : K) : Except PyErr K :=
  match f with
  | .air => .ok 1
  | .sellmeier ts => ts.foldl (sellmeierTerm x) (.ok 1)
  | .laurent a b c d e f => .ok (a + b * x ^ 2 + c / x ^ 2 + d / x ^ 4 + e / x ^ 6 + f / x ^ 8)

/-- The check made by all the materials, e.g. `materials.py:126-127`, then the formula. -/
def Glass.square (g : Glass) (x : K) : Except PyErr K :=
  if x > ((10 : ℚ) : K) ∨ x < ((0.01 : ℚ) : K) then .error .valueError else g.formula.square x
end

/-- What `** .5` returns. -/
inductive PyIndex where
  | real (n : ℝ)
  /-- a complex number -/
  | complex

/-- `Material.n(wavelength)`. -/
noncomputable def Glass.n (g : Glass) (x : ℝ) : Except PyErr PyIndex :=
  match g.square x with
  | .error e => .error e
  | .ok s => .ok (if 0 ≤ s then .real (Real.sqrt s) else .complex)

/-- All the subclasses, in order; `E_BAF11` is defined twice. -/
def materials : List Glass := [
  -- `materials.py:125-134`
  ⟨"Air", .air, 0.0⟩,
  -- `materials.py:136-149`
  ⟨"N_BK7", .sellmeier [(1.03961212, 0.00600069867), (0.231792344, 0.0200179144), (1.01046945, 103.560653)], 64.17⟩,
  -- `materials.py:152-164`
  ⟨"N_SF2", .sellmeier [(1.47343127, 0.0109019098), (0.163681849, 0.0585683687), (1.36920899, 127.404933)], 33.82⟩,
  -- `materials.py:166-178`
  ⟨"N_SF8", .sellmeier [(1.55075812, 0.0114338344), (0.209816918, 0.0582725652), (1.46205491, 133.24165)], 31.31⟩,
  -- `materials.py:181-193`
  ⟨"SF2", .sellmeier [(1.40301821, 0.0105795466), (0.231767504, 0.0493226978), (0.939056586, 112.405955)], 33.85⟩,
  -- `materials.py:196-208`
  ⟨"SF5", .sellmeier [(1.46141885, 0.0111826126), (0.247713019, 0.0508594669), (0.949995832, 112.041888)], 32.21⟩,
  -- `materials.py:211-223`
  ⟨"N_SF5", .sellmeier [(1.52481889, 0.011254756), (0.187085527, 0.0588995392), (1.42729015, 129.141675)], 32.25⟩,
  -- `materials.py:225-237`
  ⟨"N_SF6", .sellmeier [(1.55912923, 0.0121481001), (0.284246288, 0.0534549042), (0.968842926, 112.174809)], 29.51⟩,
  -- `materials.py:240-252`
  ⟨"N_SF6HT", .sellmeier [(1.77931763, 0.0133714182), (0.338149866, 0.0617533621), (2.08734474, 174.01759)], 25.36⟩,
  -- `materials.py:254-266`
  ⟨"N_SF10", .sellmeier [(1.62153902, 0.0122241457), (0.256287842, 0.0595736775), (1.64447552, 147.468793)], 28.53⟩,
  -- `materials.py:268-280`
  ⟨"N_SF11", .sellmeier [(1.73759695, 0.013188707), (0.313747346, 0.0623068142), (1.89878101, 155.23629)], 25.68⟩,
  -- `materials.py:282-294`
  ⟨"N_SF57", .sellmeier [(1.87543831, 0.0141749518), (0.37375749, 0.0640509927), (2.30001797, 177.389795)], 23.78⟩,
  -- `materials.py:296-308`
  ⟨"N_BAF10", .sellmeier [(1.5851495, 0.00926681282), (0.143559385, 0.0424489805), (1.08521269, 105.613573)], 47.11⟩,
  -- `materials.py:310-322`
  ⟨"E_BAF11", .laurent 2.71954649 (-0.0100472501) 0.0200301385 0.000465868302 (-7.51633336e-06) 1.77544989e-06, 46.48⟩,
  -- `materials.py:324-336`
  ⟨"N_BAK1", .sellmeier [(1.12365662, 0.00644742752), (0.309276848, 0.0222284402), (0.881511957, 107.297751)], 57.55⟩,
  -- `materials.py:338-350`
  ⟨"N_BAK4", .sellmeier [(1.28834642, 0.00779980626), (0.132817724, 0.0315631177), (0.945395373, 105.965875)], 55.97⟩,
  -- `materials.py:352-364`
  ⟨"FK51A", .sellmeier [(0.971247817, 0.00472301995), (0.216901417, 0.0153575612), (0.904651666, 168.68133)], 84.47⟩,
  -- `materials.py:367-379`
  ⟨"LAFN7", .sellmeier [(1.66842615, 0.0103159999), (0.298512803, 0.0469216348), (1.0774376, 82.5078509)], 34.95⟩,
  -- `materials.py:381-393`
  ⟨"N_LASF9", .sellmeier [(2.00029547, 0.0121426017), (0.298926886, 0.0538736236), (1.80691843, 156.530829)], 32.17⟩,
  -- `materials.py:395-407`
  ⟨"N_LAK22", .sellmeier [(1.14229781, 0.00585778594), (0.535138441, 0.0198546147), (1.04088385, 100.834017)], 55.89⟩,
  -- `materials.py:410-422`
  ⟨"N_SSK5", .sellmeier [(1.59222659, 0.00920284626), (0.103520774, 0.0423530072), (1.05174016, 106.927374)], 50.88⟩,
  -- `materials.py:424-436`
  ⟨"E_FD10", .laurent 2.881518 (-0.013228312) 0.03145559 0.0026851666 (-0.00022577544) 2.4693268e-05, 28.32⟩,
  -- `materials.py:438-450`
  ⟨"FusedSilica", .sellmeier [(0.6961663, 0.0684043 ^ 2), (0.4079426, 0.1162414 ^ 2), (0.8974794, 9.896161 ^ 2)], 67.82⟩,
  -- `materials.py:452-464`
  ⟨"N_SK16", .sellmeier [(1.34317774, 0.00704687339), (0.241144399, 0.0229005), (0.994317969, 92.7508526)], 60.32⟩,
  -- `materials.py:466-478`
  ⟨"E_BAF11", .laurent 2.71954649 (-0.0100472501) 0.0200301385 0.000465868302 (-7.51633336e-06) 1.77544989e-06, 48.31⟩,
  -- `materials.py:480-492`
  ⟨"N_LAK10", .sellmeier [(1.72878017, 0.00886014635), (0.169257825, 0.0363416509), (1.19386956, 82.9009069)], 50.62⟩,
  -- `materials.py:494-506`
  ⟨"S_BAH11", .sellmeier [(1.5713886, 0.00910807936), (0.147869313, 0.0402401684), (1.28092846, 130.399367)], 48.32⟩,
  -- `materials.py:508-520`
  ⟨"S_TIH6", .sellmeier [(1.77227611, 0.0131182633), (0.34569125, 0.0614479619), (2.40788501, 200.753254)], 25.42⟩,
  -- `materials.py:522-535`
  ⟨"N_SK2", .sellmeier [(1.28189012, 0.0072719164), (0.257738258, 0.0242823527), (0.96818604, 110.377773)], 56.65⟩,
  -- `materials.py:537-550`
  ⟨"S_PHM52", .sellmeier [(1.0996655, 0.0132718559), (0.478125422, -0.000601649685), (1.13214074, 130.595472)], 63.33⟩,
  -- `materials.py:552-565`
  ⟨"S_NPH2", .sellmeier [(2.0386951, 0.0170796224), (0.437269641, 0.0749254813), (2.96711461, 174.155354)], 18.90⟩,
  -- `materials.py:568-580`
  ⟨"N_PK52A", .sellmeier [(1.029607, 0.00516800155), (0.1880506, 0.0166658798), (0.736488165, 138.964129)], 81.61⟩,
  -- `materials.py:582-594`
  ⟨"H_LAF3B", .sellmeier [(1.66486969, 0.00895646712), (0.30162248, 0.0350299695), (1.1973888, 123.334438)], 44.90⟩,
  -- `materials.py:597-609`
  ⟨"H_ZF52GT", .sellmeier [(0.409982615, 0.0621421199), (2.37517176, 185.055134), (1.83913582, 0.0136093459)], 23.78⟩,
  -- `materials.py:612-624`
  ⟨"H_ZF13", .sellmeier [(1.73521591, 0.0131087904), (0.316277446, 0.0621421663), (2.16384634, 178.845558)], 25.72⟩,
  -- `materials.py:627-639`
  ⟨"H_ZK50", .sellmeier [(0.434311306, -0.00192252587), (1.10560033, 0.0147271072), (0.988776159, 110.41165)], 56.65⟩,
  -- `materials.py:641-653`
  ⟨"H_F4", .sellmeier [(0.131898794, 0.05793195), (1.42441827, 0.0106270032), (1.21746316, 117.376535)], 36.35⟩]

/-- `str.lower()` for the characters of the names (ASCII) and `utils.py:174-175` `areTheSame(a, b)`. -/
def areTheSame (a b : List Char) : Bool := a.map Char.toLower == b.map Char.toLower

/-- `s.replace(c, '')`. -/
def dropChar (c : Char) (s : List Char) : List Char := s.filter (· ≠ c)

/-- `materials.py:83-91` `str(material)`: the class name with hyphens. -/
def Glass.str (g : Glass) : List Char := g.name.toList.map fun c => if c = '_' then '-' else c

/-- `globals()[className]`, `materials.py:104` and `materials.py:119`: the last class of that name of the module `materials.py`; a class defined in
another module is not there. (Other objects of the module are not materials: a class that has the name of one of them is not modelled.) -/
def classNamed (name : String) : Except PyErr Glass :=
  match materials.reverse.find? fun g => g.name == name with
  | some g => .ok g
  | none => .error .keyError

/-- `materials.py:93-108` `findByName(name)`, `all` being the names listed by `Material.all()`, including those of the classes that the user
has defined: the first one that is the same without `_`, ignoring case and the hyphens of the argument; then the class of that name. -/
def findAmong (all : List String) (name : Option (List Char)) : Except PyErr Glass :=
  match name with
  | none => classNamed "Air"
  | some s =>
    match all.find? fun c => areTheSame (dropChar '-' s) (dropChar '_' c.toList) with
    | none => .error .valueError
    | some c => classNamed c

/-- The same with the classes of the module only. -/
def findByName (name : Option (List Char)) : Except PyErr Glass := findAmong (materials.map Glass.name) name

end RT

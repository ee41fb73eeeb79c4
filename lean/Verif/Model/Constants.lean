/- neut_constants.py. Numbers are elements of a field (exact arithmetic instead of doubles). -/
import Verif.Py.Base
import Mathlib.Algebra.Field.Basic
import Mathlib.Data.Rat.Cast.Defs
import Mathlib.Data.Rat.Cast.Lemmas

namespace Constants
open Py
variable {K : Type} [Field K]

/-- neut_constants.py:4-6 `get_e`. -/
def getE : K := 1.60217662e-19

/-- neut_constants.py:9-11 `get_p_mass`. -/
def getPMass : K := 1.672623e-24

/-- neut_constants.py:14-16 `get_n_mass`. -/
def getNMass : K := 1.674929e-24

/-- neut_constants.py:19-21 `get_e_mass`. -/
def getEMass : K := 9.10938e-28

/-- neut_constants.py:24-26 `rem_to_Sv`. -/
def remToSv (val : K) : K := val / 100.0

/-- neut_constants.py:29-31 `sv_to_rem`. -/
def svToRem (val : K) : K := val * 100.0

/-- neut_constants.py:34-36 `years_to_seconds`. -/
def yearsToSeconds (val : K) : K := val * 365.25 * 24 * 60 * 60

/-- neut_constants.py:39-41 `years_to_hrs`. -/
def yearsToHrs (val : K) : K := val * 365.25 * 24

/-- neut_constants.py:44-46 `years_to_days`. -/
def yearsToDays (val : K) : K := val * 365.25

/-- neut_constants.py:49-51 `bq_to_curie`. -/
def bqToCurie (val : K) : K := val * 2.703e11

/-- neut_constants.py:54-56 `curie_to_bq`. -/
def curieToBq (val : K) : K := val * 3.7e-12

/-- neut_constants.py:59-61 `eV_to_joule`. -/
def eVToJoule (val : K) : K := val * 1.602e-19

/-- neut_constants.py:74-76 `joule_to_ev`. -/
def jouleToEV (val : K) : K := val / 1.602e-19

/-- neut_constants.py:79-81 `second_to_hour`. -/
def secondToHour (val : K) : K := val / 3600

/-- neut_constants.py:84-86 `second_to_day`. -/
def secondToDay (val : K) : K := val / 86400

/-- neut_constants.py:89-91 `second_to_year`. -/
def secondToYear (val : K) : K := val / 3.1536e07

/-- neut_constants.py:94-96 `hour_to_second`. -/
def hourToSecond (val : K) : K := val * 3600

/-- neut_constants.py:99-101 `day_to_second`. -/
def dayToSecond (val : K) : K := val * 86400

/-- neut_constants.py:104-106 `shake_to_second`. -/
def shakeToSecond (val : K) : K := val * 1e-8

/-- neut_constants.py:109-111 `second_to_shake`. -/
def secondToShake (val : K) : K := val * 1e8

/-- neut_constants.py:114-116 `shake_to_ms`. -/
def shakeToMs (val : K) : K := val / 100

/-- neut_constants.py:119-121 `barn_to_cm2`. -/
def barnToCm2 (val : K) : K := val / 1e24

/-- neut_constants.py:124-126 `cm2_to_barn`. -/
def cm2ToBarn (val : K) : K := val * 1e24

/-- neut_constants.py:64-66 `eV_to_wavelength_photon`. -/
def eVToWavelengthPhoton [DecidableEq K] (val : K) : Except Err K :=
  if val = 0 then .error .ZeroDivisionError else .ok (1.24e-6 / val)

/-- neut_constants.py:69-71 `wavelength_to_meV_neutron`. -/
def wavelengthToMeVNeutron [DecidableEq K] (val : K) : Except Err K :=
  if val * val = 0 then .error .ZeroDivisionError else .ok (81.81 / (val * val))

/-- neut_constants.py:129-250 `Z_dict`. -/
def zDict : Dict Str Nat :=
  [(p!"H", 1), (p!"He", 2), (p!"Li", 3), (p!"Be", 4), (p!"B", 5), (p!"C", 6), (p!"N", 7), (p!"O", 8),
   (p!"F", 9), (p!"Ne", 10), (p!"Na", 11), (p!"Mg", 12), (p!"Al", 13), (p!"Si", 14), (p!"P", 15), (p!"S", 16),
   (p!"Cl", 17), (p!"Ar", 18), (p!"K", 19), (p!"Ca", 20), (p!"Sc", 21), (p!"Ti", 22), (p!"V", 23), (p!"Cr", 24),
   (p!"Mn", 25), (p!"Fe", 26), (p!"Co", 27), (p!"Ni", 28), (p!"Cu", 29), (p!"Zn", 30), (p!"Ga", 31), (p!"Ge", 32),
   (p!"As", 33), (p!"Se", 34), (p!"Br", 35), (p!"Kr", 36), (p!"Rb", 37), (p!"Sr", 38), (p!"Y", 39), (p!"Zr", 40),
   (p!"Nb", 41), (p!"Mo", 42), (p!"Tc", 43), (p!"Ru", 44), (p!"Rh", 45), (p!"Pd", 46), (p!"Ag", 47), (p!"Cd", 48),
   (p!"In", 49), (p!"Sn", 50), (p!"Sb", 51), (p!"Te", 52), (p!"I", 53), (p!"Xe", 54), (p!"Cs", 55), (p!"Ba", 56),
   (p!"La", 57), (p!"Ce", 58), (p!"Pr", 59), (p!"Nd", 60), (p!"Pm", 61), (p!"Sm", 62), (p!"Eu", 63), (p!"Gd", 64),
   (p!"Tb", 65), (p!"Dy", 66), (p!"Ho", 67), (p!"Er", 68), (p!"Tm", 69), (p!"Yb", 70), (p!"Lu", 71), (p!"Hf", 72),
   (p!"Ta", 73), (p!"W", 74), (p!"Re", 75), (p!"Os", 76), (p!"Ir", 77), (p!"Pt", 78), (p!"Au", 79), (p!"Hg", 80),
   (p!"Tl", 81), (p!"Pb", 82), (p!"Bi", 83), (p!"Po", 84), (p!"At", 85), (p!"Rn", 86), (p!"Fr", 87), (p!"Ra", 88),
   (p!"Ac", 89), (p!"Th", 90), (p!"Pa", 91), (p!"U", 92), (p!"Np", 93), (p!"Pu", 94), (p!"Am", 95), (p!"Cm", 96),
   (p!"Bk", 97), (p!"Cf", 98), (p!"Es", 99), (p!"Fm", 100), (p!"Md", 101), (p!"No", 102), (p!"Lr", 103), (p!"Rf", 104),
   (p!"Db", 105), (p!"Sg", 106), (p!"Bh", 107), (p!"Hs", 108), (p!"Mt", 109), (p!"Ds", 110), (p!"Rg", 111), (p!"Cn", 112),
   (p!"Nh", 113), (p!"Fl", 114), (p!"Mc", 115), (p!"Lv", 116), (p!"Ts", 117), (p!"Og", 118)]

end Constants

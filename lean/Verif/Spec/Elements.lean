/-
The periodic table: symbols of the elements in the order of their atomic numbers (IUPAC 2018), written row by row.
-/
import Verif.Py.Str

namespace Spec
open Py

/-- The element with atomic number `z` is entry `z - 1`. -/
def elements : List Str := splitWs (
  p!"H He " ++
  p!"Li Be B C N O F Ne " ++
  p!"Na Mg Al Si P S Cl Ar " ++
  p!"K Ca Sc Ti V Cr Mn Fe Co Ni Cu Zn Ga Ge As Se Br Kr " ++
  p!"Rb Sr Y Zr Nb Mo Tc Ru Rh Pd Ag Cd In Sn Sb Te I Xe " ++
  p!"Cs Ba La Ce Pr Nd Pm Sm Eu Gd Tb Dy Ho Er Tm Yb Lu Hf Ta W Re Os Ir Pt Au Hg Tl Pb Bi Po At Rn " ++
  p!"Fr Ra Ac Th Pa U Np Pu Am Cm Bk Cf Es Fm Md No Lr Rf Db Sg Bh Hs Mt Ds Rg Cn Nh Fl Mc Lv Ts Og")

end Spec

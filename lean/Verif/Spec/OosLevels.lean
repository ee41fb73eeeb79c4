/-
The out of scope levels of data/t1.txt, arranged by level: a second transcription of the file, made from the data file and not from the
list of rows in the model.
-/
import Verif.Py.Base

namespace Spec
open Py

/-- The entries of data/t1.txt with each of its levels (Bq/g). -/
def oosLevels : List (Str × List Str) :=
  [(p!"0.01", [p!"Pb210", p!"Po210", p!"Ra226", p!"Ra228", p!"Ac227", p!"Th232", p!"Th232sec", p!"Pa231", p!"U235sec", p!"U238sec",
     p!"Other"]),
   (p!"0.1", [p!"Na22", p!"Na24", p!"Sc46", p!"Sc48", p!"V48", p!"Mn52", p!"Mn54", p!"Fe59", p!"Co56", p!"Co58", p!"Co60", p!"Br82",
     p!"Zr95", p!"Nb94", p!"Tc96", p!"Ag108m", p!"Ag110m", p!"Sb124", p!"Te132", p!"I129", p!"Cs134", p!"Cs136", p!"Ba140",
     p!"La140", p!"Eu152", p!"Eu154", p!"Tb160", p!"Ta182", p!"Ir190", p!"Ir192", p!"Bi206", p!"Bi207", p!"Th228",
     p!"Th229", p!"Th230", p!"U232", p!"Np237", p!"Pu236", p!"Pu238", p!"Pu239", p!"Pu240", p!"Pu242", p!"Pu244", p!"Am241",
     p!"Am242m", p!"Am243", p!"Cm243", p!"Cm244", p!"Cm245", p!"Cm246", p!"Cm247", p!"Cm248", p!"Cf249", p!"Cf250",
     p!"Cf251", p!"Cf252", p!"Cf254", p!"Es254"]),
   (p!"1", [p!"F18", p!"Cl36", p!"Cl38", p!"K43", p!"Ca47", p!"Mn51", p!"Mn52m", p!"Mn56", p!"Fe52", p!"Co55", p!"Co57", p!"Co62m",
     p!"Ni65", p!"Zn65", p!"Zn69m", p!"Ga72", p!"As74", p!"As76", p!"Se75", p!"Sr85", p!"Sr90", p!"Sr91", p!"Sr92",
     p!"Y91m", p!"Zr97", p!"Nb95", p!"Nb97", p!"Nb98", p!"Mo90", p!"Mo99", p!"Mo101", p!"Tc99", p!"Ru97", p!"Ru103",
     p!"Ru105", p!"Ru106", p!"Ag105", p!"Cd115", p!"In111", p!"In114m", p!"Sn113", p!"Sn125", p!"Sb122", p!"Sb125",
     p!"Te123m", p!"Te131m", p!"Te133", p!"Te133m", p!"Te134", p!"I125", p!"I126", p!"I130", p!"I131", p!"I132", p!"I133",
     p!"I134", p!"I135", p!"Cs129", p!"Cs132", p!"Cs137", p!"Cs138", p!"Ba131", p!"Ce139", p!"Ce143", p!"Hf181", p!"W187",
     p!"Os185", p!"Pt191", p!"Au198", p!"Hg203", p!"Tl200", p!"Tl202", p!"Pb203", p!"Pb212", p!"Bi212", p!"Po203",
     p!"Po205", p!"Po207", p!"Ra223", p!"Ra224", p!"Ra225", p!"Ac228", p!"Th227", p!"Pa230", p!"Pa233", p!"U230+", p!"U233",
     p!"U234", p!"U235", p!"U236", p!"U238", p!"Np240", p!"Pu241", p!"Cm242", p!"Cf248", p!"Cf253", p!"Es253", p!"Es254m"]),
   (p!"10", [p!"Be7", p!"C14", p!"K42", p!"Sc47", p!"Cr51", p!"Cu64", p!"Rb86", p!"Sr85m", p!"Sr87m", p!"Sr89", p!"Y91", p!"Y92",
     p!"Y93", p!"Zr93", p!"Mo93", p!"Tc96m", p!"Tc97", p!"Tc97m", p!"Rh105", p!"Ag111", p!"Cd109", p!"Cd115m", p!"In113m",
     p!"In115m", p!"Te127m", p!"Te129", p!"Te129m", p!"Te131", p!"I123", p!"Cs135", p!"Ce141", p!"Ce144", p!"Pr142",
     p!"Nd147", p!"Nd149", p!"Sm153", p!"Eu152m", p!"Eu155", p!"Gd153", p!"Gd159", p!"Dy166", p!"Ho166", p!"Er171",
     p!"Tm170", p!"Yb175", p!"Lu177", p!"W181", p!"Re188", p!"Os191", p!"Os193", p!"Ir194", p!"Au199", p!"Hg197",
     p!"Hg197m", p!"Tl201", p!"Tl204", p!"Bi210", p!"Ra227", p!"Th234", p!"U231", p!"U237", p!"U240", p!"Np239", p!"Pu237",
     p!"Bk249", p!"Cf246", p!"Fm255"]),
   (p!"100", [p!"H3", p!"Si31", p!"P32", p!"P33", p!"S35", p!"Ca45", p!"Co58m", p!"Co61", p!"Ni59", p!"Ni63", p!"Zn69", p!"As73",
     p!"As77", p!"Y90", p!"Nb93m", p!"Tc99m", p!"Pd109", p!"Te125m", p!"Te127", p!"Pr143", p!"Pm147", p!"Pm149", p!"Sm151",
     p!"Dy165", p!"Er169", p!"Tm171", p!"W185", p!"Re186", p!"Pt193m", p!"Pt197", p!"Pt197m", p!"At211", p!"Th226",
     p!"Th231", p!"U239", p!"Pu234", p!"Pu235", p!"Pu243", p!"Am242", p!"Fm254"]),
   (p!"1000", [p!"Mn53", p!"Fe55", p!"Co60m", p!"Pd103", p!"Cs131", p!"Cs134m", p!"Os191m"]),
   (p!"10000", [p!"Ge71", p!"Rh103m"])]

end Spec

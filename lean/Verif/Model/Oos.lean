/-
Model of `read_OOS` in /repo/fispact_analysis.py and of the data file /repo/data/t1.txt it reads by default.
-/
import Verif.Model.FispactAnalysis

namespace FispactAnalysis
open Py
variable {K : Type} [Field K] [LinearOrder K]

/-- `os.path.join(base, path)` on Linux, used at fispact_analysis.py:116. -/
def osJoin (base path : Str) : Str :=
  if startsWith path p!"/" then path
  else if base.isEmpty || endsWith base p!"/" then base ++ path
  else base ++ p!"/" ++ path

/-- One data row of the table: name and level. A missing or empty level is NaN (`none`); an entry that is no number would leave the
    column as text, which raises TypeError when it is compared, and is modelled as TypeError on reading. -/
def oosRow (flt : Str → Option K) (line : Str) : Except Err (Str × Option K) :=
  match splitOn '\t' line with
  | [n] => .ok (n, none)
  | [n, l] =>
    if l.isEmpty then .ok (n, none)
    else match flt l with
      | some x => .ok (n, some x)
      | none => .error .TypeError
  | _ => .error .ValueError

/-- `pd.read_csv(path, sep='\t')` at fispact_analysis.py:117, for tables whose header is that of data/t1.txt (others raise KeyError as
    soon as a column is asked for). Empty lines are skipped, an empty file is a ValueError (EmptyDataError), and so is a row with more
    columns than the header (ParserError). Quotes and the texts pandas takes for NaN, such as `NA`, do not occur in the data file and
    are not modelled. -/
def parseOos (flt : Str → Option K) (text : Str) : Except Err (Limits K) :=
  match (splitOn '\n' (univNL text)).filter (fun l => !l.isEmpty) with
  | [] => .error .ValueError
  | h :: rows => if h = p!"Nuclide\tOOS Level" then rows.mapM (oosRow flt) else .error .KeyError

/-- fispact_analysis.py:110-119 `read_OOS`; `base` is the folder of the module. -/
def readOOS (flt : Str → Option K) (base : Str) (fs : FS) (path : Str) : Except Err (Limits K) :=
  match fs.node (osJoin base path) with
  | none => .error .FileNotFoundError
  | some .dir => .error .OSError
  | some (.file c) => parseOos flt c

/-- data/t1.txt:2-286, names and levels. -/
def t1Rows : List (Str × Str) :=
  [(p!"H3", p!"100"), (p!"Be7", p!"10"), (p!"C14", p!"10"), (p!"F18", p!"1"), (p!"Na22", p!"0.1"), (p!"Na24", p!"0.1"),
   (p!"Si31", p!"100"), (p!"P32", p!"100"), (p!"P33", p!"100"), (p!"S35", p!"100"), (p!"Cl36", p!"1"), (p!"Cl38", p!"1"),
   (p!"K42", p!"10"), (p!"K43", p!"1"), (p!"Ca45", p!"100"), (p!"Ca47", p!"1"), (p!"Sc46", p!"0.1"), (p!"Sc47", p!"10"),
   (p!"Sc48", p!"0.1"), (p!"V48", p!"0.1"), (p!"Cr51", p!"10"), (p!"Mn51", p!"1"), (p!"Mn52", p!"0.1"), (p!"Mn52m", p!"1"),
   (p!"Mn53", p!"1000"), (p!"Mn54", p!"0.1"), (p!"Mn56", p!"1"), (p!"Fe52", p!"1"), (p!"Fe55", p!"1000"), (p!"Fe59", p!"0.1"),
   (p!"Co55", p!"1"), (p!"Co56", p!"0.1"), (p!"Co57", p!"1"), (p!"Co58", p!"0.1"), (p!"Co58m", p!"100"), (p!"Co60", p!"0.1"),
   (p!"Co60m", p!"1000"), (p!"Co61", p!"100"), (p!"Co62m", p!"1"), (p!"Ni59", p!"100"), (p!"Ni63", p!"100"), (p!"Ni65", p!"1"),
   (p!"Cu64", p!"10"), (p!"Zn65", p!"1"), (p!"Zn69", p!"100"), (p!"Zn69m", p!"1"), (p!"Ga72", p!"1"), (p!"Ge71", p!"10000"),
   (p!"As73", p!"100"), (p!"As74", p!"1"), (p!"As76", p!"1"), (p!"As77", p!"100"), (p!"Se75", p!"1"), (p!"Br82", p!"0.1"),
   (p!"Rb86", p!"10"), (p!"Sr85", p!"1"), (p!"Sr85m", p!"10"), (p!"Sr87m", p!"10"), (p!"Sr89", p!"10"), (p!"Sr90", p!"1"),
   (p!"Sr91", p!"1"), (p!"Sr92", p!"1"), (p!"Y90", p!"100"), (p!"Y91", p!"10"), (p!"Y91m", p!"1"), (p!"Y92", p!"10"),
   (p!"Y93", p!"10"), (p!"Zr93", p!"10"), (p!"Zr95", p!"0.1"), (p!"Zr97", p!"1"), (p!"Nb93m", p!"100"), (p!"Nb94", p!"0.1"),
   (p!"Nb95", p!"1"), (p!"Nb97", p!"1"), (p!"Nb98", p!"1"), (p!"Mo90", p!"1"), (p!"Mo93", p!"10"), (p!"Mo99", p!"1"),
   (p!"Mo101", p!"1"), (p!"Tc96", p!"0.1"), (p!"Tc96m", p!"10"), (p!"Tc97", p!"10"), (p!"Tc97m", p!"10"), (p!"Tc99", p!"1"),
   (p!"Tc99m", p!"100"), (p!"Ru97", p!"1"), (p!"Ru103", p!"1"), (p!"Ru105", p!"1"), (p!"Ru106", p!"1"), (p!"Rh103m", p!"10000"),
   (p!"Rh105", p!"10"), (p!"Pd103", p!"1000"), (p!"Pd109", p!"100"), (p!"Ag105", p!"1"), (p!"Ag108m", p!"0.1"),
   (p!"Ag110m", p!"0.1"), (p!"Ag111", p!"10"), (p!"Cd109", p!"10"), (p!"Cd115", p!"1"), (p!"Cd115m", p!"10"), (p!"In111", p!"1"),
   (p!"In113m", p!"10"), (p!"In114m", p!"1"), (p!"In115m", p!"10"), (p!"Sn113", p!"1"), (p!"Sn125", p!"1"), (p!"Sb122", p!"1"),
   (p!"Sb124", p!"0.1"), (p!"Sb125", p!"1"), (p!"Te123m", p!"1"), (p!"Te125m", p!"100"), (p!"Te127", p!"100"),
   (p!"Te127m", p!"10"), (p!"Te129", p!"10"), (p!"Te129m", p!"10"), (p!"Te131", p!"10"), (p!"Te131m", p!"1"),
   (p!"Te132", p!"0.1"), (p!"Te133", p!"1"), (p!"Te133m", p!"1"), (p!"Te134", p!"1"), (p!"I123", p!"10"), (p!"I125", p!"1"),
   (p!"I126", p!"1"), (p!"I129", p!"0.1"), (p!"I130", p!"1"), (p!"I131", p!"1"), (p!"I132", p!"1"), (p!"I133", p!"1"),
   (p!"I134", p!"1"), (p!"I135", p!"1"), (p!"Cs129", p!"1"), (p!"Cs131", p!"1000"), (p!"Cs132", p!"1"), (p!"Cs134", p!"0.1"),
   (p!"Cs134m", p!"1000"), (p!"Cs135", p!"10"), (p!"Cs136", p!"0.1"), (p!"Cs137", p!"1"), (p!"Cs138", p!"1"), (p!"Ba131", p!"1"),
   (p!"Ba140", p!"0.1"), (p!"La140", p!"0.1"), (p!"Ce139", p!"1"), (p!"Ce141", p!"10"), (p!"Ce143", p!"1"), (p!"Ce144", p!"10"),
   (p!"Pr142", p!"10"), (p!"Pr143", p!"100"), (p!"Nd147", p!"10"), (p!"Nd149", p!"10"), (p!"Pm147", p!"100"),
   (p!"Pm149", p!"100"), (p!"Sm151", p!"100"), (p!"Sm153", p!"10"), (p!"Eu152", p!"0.1"), (p!"Eu152m", p!"10"),
   (p!"Eu154", p!"0.1"), (p!"Eu155", p!"10"), (p!"Gd153", p!"10"), (p!"Gd159", p!"10"), (p!"Tb160", p!"0.1"),
   (p!"Dy165", p!"100"), (p!"Dy166", p!"10"), (p!"Ho166", p!"10"), (p!"Er169", p!"100"), (p!"Er171", p!"10"),
   (p!"Tm170", p!"10"), (p!"Tm171", p!"100"), (p!"Yb175", p!"10"), (p!"Lu177", p!"10"), (p!"Hf181", p!"1"), (p!"Ta182", p!"0.1"),
   (p!"W181", p!"10"), (p!"W185", p!"100"), (p!"W187", p!"1"), (p!"Re186", p!"100"), (p!"Re188", p!"10"), (p!"Os185", p!"1"),
   (p!"Os191", p!"10"), (p!"Os191m", p!"1000"), (p!"Os193", p!"10"), (p!"Ir190", p!"0.1"), (p!"Ir192", p!"0.1"),
   (p!"Ir194", p!"10"), (p!"Pt191", p!"1"), (p!"Pt193m", p!"100"), (p!"Pt197", p!"100"), (p!"Pt197m", p!"100"),
   (p!"Au198", p!"1"), (p!"Au199", p!"10"), (p!"Hg197", p!"10"), (p!"Hg197m", p!"10"), (p!"Hg203", p!"1"), (p!"Tl200", p!"1"),
   (p!"Tl201", p!"10"), (p!"Tl202", p!"1"), (p!"Tl204", p!"10"), (p!"Pb203", p!"1"), (p!"Pb210", p!"0.01"), (p!"Pb212", p!"1"),
   (p!"Bi206", p!"0.1"), (p!"Bi207", p!"0.1"), (p!"Bi210", p!"10"), (p!"Bi212", p!"1"), (p!"Po203", p!"1"), (p!"Po205", p!"1"),
   (p!"Po207", p!"1"), (p!"Po210", p!"0.01"), (p!"At211", p!"100"), (p!"Ra223", p!"1"), (p!"Ra224", p!"1"), (p!"Ra225", p!"1"),
   (p!"Ra226", p!"0.01"), (p!"Ra227", p!"10"), (p!"Ra228", p!"0.01"), (p!"Ac227", p!"0.01"), (p!"Ac228", p!"1"),
   (p!"Th226", p!"100"), (p!"Th227", p!"1"), (p!"Th228", p!"0.1"), (p!"Th229", p!"0.1"), (p!"Th230", p!"0.1"),
   (p!"Th231", p!"100"), (p!"Th232", p!"0.01"), (p!"Th232", p!"0.01"), (p!"Th232sec", p!"0.01"), (p!"Th234", p!"10"),
   (p!"Pa230", p!"1"), (p!"Pa231", p!"0.01"), (p!"Pa233", p!"1"), (p!"U230+", p!"1"), (p!"U231", p!"10"), (p!"U232", p!"0.1"),
   (p!"U233", p!"1"), (p!"U234", p!"1"), (p!"U235", p!"1"), (p!"U235sec", p!"0.01"), (p!"U236", p!"1"), (p!"U237", p!"10"),
   (p!"U238", p!"1"), (p!"U238sec", p!"0.01"), (p!"U239", p!"100"), (p!"U240", p!"10"), (p!"Np237", p!"0.1"),
   (p!"Np239", p!"10"), (p!"Np240", p!"1"), (p!"Pu234", p!"100"), (p!"Pu235", p!"100"), (p!"Pu236", p!"0.1"),
   (p!"Pu237", p!"10"), (p!"Pu238", p!"0.1"), (p!"Pu239", p!"0.1"), (p!"Pu240", p!"0.1"), (p!"Pu241", p!"1"),
   (p!"Pu242", p!"0.1"), (p!"Pu243", p!"100"), (p!"Pu244", p!"0.1"), (p!"Am241", p!"0.1"), (p!"Am242", p!"100"),
   (p!"Am242m", p!"0.1"), (p!"Am243", p!"0.1"), (p!"Cm242", p!"1"), (p!"Cm243", p!"0.1"), (p!"Cm244", p!"0.1"),
   (p!"Cm245", p!"0.1"), (p!"Cm246", p!"0.1"), (p!"Cm247", p!"0.1"), (p!"Cm248", p!"0.1"), (p!"Bk249", p!"10"),
   (p!"Cf246", p!"10"), (p!"Cf248", p!"1"), (p!"Cf249", p!"0.1"), (p!"Cf250", p!"0.1"), (p!"Cf251", p!"0.1"),
   (p!"Cf252", p!"0.1"), (p!"Cf253", p!"1"), (p!"Cf253", p!"1"), (p!"Cf254", p!"0.1"), (p!"Es253", p!"1"), (p!"Es254", p!"0.1"),
   (p!"Es254m", p!"1"), (p!"Fm254", p!"100"), (p!"Fm255", p!"10"), (p!"Other", p!"0.01")]

/-- data/t1.txt, with its line ends. -/
def t1Text : Str := p!"Nuclide\tOOS Level\r\n" ++ t1Rows.flatMap (fun r => r.1 ++ p!"\t" ++ r.2 ++ p!"\r\n")

end FispactAnalysis

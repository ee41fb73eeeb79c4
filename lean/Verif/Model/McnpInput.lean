/-
Model of mcnp_input_reader.py (lines 8-754).

Simplifications. Texts are treated as ASCII where letter case and digits are concerned (`str.lower`, `str.isdigit`). `flt` is an
arbitrary float parser with values in a type `F`. Output printed for unknown parts is left out. Exceptions are modelled by their
class only. Objects are records; an attribute that the code sets on an object without declaring it is a separate field.
-/
import Verif.Model.NeutUtilities

namespace McnpInput
open Py NeutUtilities
variable {F : Type}

/-- mcnp_input_reader.py:143-159 `long_line_index`. -/
def longLineIndex (lines : List Str) : Option (List Nat) :=
  let idx := lines.zipIdx.filterMap (fun e =>
    if e.1.length > 79 then
      if startsWith (lower e.1) p!"c " then none
      else if hasSub p!" $" e.1 then none
      else some e.2
    else none)
  if idx.length = 0 then none else some idx

/-- mcnp_input_reader.py:589-591 `is_continue_line`. -/
def isContinueLine (line : Str) : Bool := startsWith line p!"     "

/-- mcnp_input_reader.py:424-427 `remove_inline_comment`. -/
def removeInlineComment (line : Str) : Str := (splitOn '$' line).headD []

/-- mcnp_input_reader.py:437-439 `has_inline_comment`. -/
def hasInlineComment (line : Str) : Bool := hasSub p!"$" line

/-- mcnp_input_reader.py:430-434 `get_inline_comment`. -/
def getInlineComment (line : Str) : Except Err Str :=
  if hasInlineComment line then orErr .IndexError (splitOn '$' line)[1]? else .ok line

/-- The loop shared by mcnp_input_reader.py:444-467 (materials), 556-575 (cards) and 610-634 (tallies); `start` is the test for
    the first line of the card, applied to the line as it is at that point (lower case, and without its comment if it has just
    been taken as a continuation line); the flag is `in_block`. -/
def scan (start : Str → Bool) : Bool → List Str → List Str
  | _, [] => []
  | false, l :: ls =>
    let l := lower l
    if start l then removeInlineComment l :: scan start true ls else scan start false ls
  | true, l :: ls =>
    let l := lower l
    if isContinueLine l then
      let l := removeInlineComment l
      l :: (if start l then removeInlineComment l :: scan start true ls else scan start true ls)
    else if startsWith l p!"c " then scan start true ls
    else if l ≠ [] then []
    else if start l then removeInlineComment l :: scan start true ls else scan start true ls

/-- mcnp_input_reader.py:572, the test for the first line of a card. -/
def cardStart (card : Str) (line : Str) : Bool :=
  startsWith line (lower card) &&
    (slice line card.length (card.length + 1) == p!" " || slice line card.length (card.length + 1) == p!":")

/-- mcnp_input_reader.py:554-577 `get_card_lines`, and 580-586 `get_prefixed_lines`. -/
def getCardLines (lines : List Str) (card : Str) : List Str := scan (cardStart card) false lines

/-- mcnp_input_reader.py:162-171 `read_mode_card`. -/
def readModeCard (lines : List Str) : Option (List Str) :=
  let ls := getCardLines lines p!"mode"
  if ls.length = 0 then none
  else some ((splitOn ' ' (stringCleaner (join p!" " ls))).drop 1)

/-- mcnp_input_reader.py:174-182 `is_mode_valid`. -/
def isModeValid (mode : List Str) : Bool :=
  mode.all (fun p => [p!"n", p!"p", p!"h", p!"e", p!"|", p!"q", p!"u", p!"v", p!"!"].contains (lower p))

/-- mcnp_input_reader.py:185-191 `get_full_line_comments`. -/
def getFullLineComments (lines : List Str) : Dict Nat Str :=
  lines.zipIdx.filterMap (fun e => if startsWith (lower e.1) p!"c " then some (e.2, e.1) else none)

/-- First letter (any case) followed by a digit, mcnp_input_reader.py:198 and 210. -/
def letterDigit (x : Char) (line : Str) : Bool :=
  match line with
  | a :: b :: _ => (a.toLower == x) && isDigit b
  | _ => false

/-- mcnp_input_reader.py:194-203 `get_material_numbers`. -/
def getMaterialNumbers (lines : List Str) : Except Err (List Int) :=
  (lines.filter (letterDigit 'm')).mapM (fun l =>
    orErr .ValueError (pyInt (((splitOn ' ' (stringCleaner l)).headD []).drop 1)))

/-- mcnp_input_reader.py:206-216 `get_tally_numbers`. -/
def getTallyNumbers (lines : List Str) : Except Err (List Int) :=
  (lines.filter (letterDigit 'f')).mapM (fun l =>
    orErr .ValueError (pyInt (((splitOn ':' ((splitOn ' ' (stringCleaner l)).headD [])).headD []).drop 1)))

/-- mcnp_input_reader.py:219-232 `is_surface_type_valid`. -/
def isSurfaceTypeValid (s : Str) : Bool :=
  [p!"p", p!"px", p!"py", p!"pz", p!"cx", p!"cy", p!"cz", p!"s", p!"so", p!"c/x", p!"c/y", p!"c/z", p!"gq", p!"sq",
   p!"sx", p!"sy", p!"sz", p!"kx", p!"ky", p!"kz", p!"k/x", p!"k/y", p!"k/z", p!"tx", p!"ty", p!"tz",
   p!"rpp", p!"rcc", p!"box", p!"sph", p!"wed", p!"rec", p!"ell", p!"hex", p!"arb", p!"trc", p!"rhp"].contains s

/-- mcnp_input_reader.py:260-270 `find_blank_lines`: the count, and the positions by number (from 1). -/
def findBlankLines (lines : List Str) : Nat × Dict Nat Nat :=
  let idx := lines.zipIdx.filterMap (fun e => if strip e.1 == [] then some e.2 else none)
  (idx.length, idx.zipIdx.map (fun e => (e.2 + 1, e.1)))

/-- mcnp_input_reader.py:273-281 `split_blocs`. -/
def splitBlocs (lines : List Str) : Except Err (List Str × List Str × List Str) := do
  let loc := (findBlankLines lines).2
  let b1 ← orErr .KeyError (loc.get 1)
  let b2 ← orErr .KeyError (loc.get 2)
  pure (lines.take b1, slice lines b1 b2, lines.drop b2)

/-- mcnp_input_reader.py:67-78 `mcnp_cell`, without `param_list`, which is never filled. -/
structure Cell (F : Type) where
  number : Int
  mat : Int
  density : Option F := none
  imp : Dict Char F := []
  geom : List Str := []
  surfaces : List F := []
  comments : List Str := []
  deriving DecidableEq, Repr

/-- mcnp_input_reader.py:284-291 `process_imp`. -/
def processImp (flt : Str → Option F) (part : Str) (imp : Dict Char F) : Except Err (Dict Char F) := do
  let val := (splitOn '=' part).getLastD []
  let rest ← orErr .IndexError (splitOn ':' part)[1]?
  let particle ← orErr .IndexError rest[0]?
  let x ← orErr .ValueError (flt val)
  pure (imp.set particle x)

/-- What the loop of `process_geom` collects: surfaces, importances, comments. -/
structure GeomSt (F : Type) where
  surfaces : List F
  imp : Dict Char F
  comments : List Str
  deriving DecidableEq, Repr

/-- mcnp_input_reader.py:304-314, after the inline comment of the part was cut off. -/
def geomPart (flt : Str → Option F) (st : GeomSt F) (part : Str) : Except Err (GeomSt F) :=
  if part.length = 0 then .ok st
  else
    let part := stripChars p!"()-" part
    if hasSub p!"imp" (lower part) then do
      let imp ← processImp flt part st.imp
      pure { st with imp := imp }
    else do
      let c ← orErr .IndexError part[0]?
      if isDigit c then
        let xs ← (splitOn ':' part).mapM (fun s => orErr .ValueError (flt s))
        pure { st with surfaces := st.surfaces ++ xs }
      else pure st

/-- mcnp_input_reader.py:300-303, a part with its inline comment. -/
def geomStep (flt : Str → Option F) (st : GeomSt F) (part : Str) : Except Err (GeomSt F) :=
  if hasSub p!"$" part then
    geomPart flt { st with comments := st.comments ++ [(splitOn '$' part).getLastD []] } ((splitOn '$' part).headD [])
  else geomPart flt st part

/-- mcnp_input_reader.py:294-318 `process_geom`. -/
def processGeom (flt : Str → Option F) (geom : List Str) (cell : Cell F) : Except Err (Cell F) := do
  let st ← geom.foldlM (geomStep flt) ⟨[], cell.imp, cell.comments⟩
  pure { cell with geom := geom, surfaces := st.surfaces, imp := st.imp, comments := st.comments }

/-- State of the loop of `process_cell_block`: dictionary, current cell with its geometry. -/
structure CellSt (F : Type) where
  dict : Dict Int (Cell F)
  cur : Option (Cell F × List Str)
  deriving DecidableEq, Repr

/-- mcnp_input_reader.py:328-331 and 347-348: finish the current cell. -/
def finishCell (flt : Str → Option F) (dict : Dict Int (Cell F)) (cur : Cell F × List Str) :
    Except Err (Dict Int (Cell F)) := do
  let c ← processGeom flt cur.2 cur.1
  pure (dict.set c.number c)

/-- mcnp_input_reader.py:333-342: a new cell from the words of its first line. -/
def startCell (flt : Str → Option F) (words : List Str) : Except Err (Cell F × List Str) := do
  let w0 ← orErr .IndexError words[0]?
  let n ← orErr .ValueError (pyInt w0)
  let w1 ← orErr .IndexError words[1]?
  let m ← orErr .ValueError (pyInt w1)
  if m ≠ 0 then
    let w2 ← orErr .IndexError words[2]?
    let d ← orErr .ValueError (flt w2)
    pure ({ number := n, mat := m, density := some d }, words.drop 3)
  else pure ({ number := n, mat := m }, words.drop 2)

/-- mcnp_input_reader.py:327-344, a line of the cell block. A continuation line before the first cell goes to a list that is
    dropped when the first cell starts; at the end without any cell the code fails in `process_geom`. -/
def cellStep (flt : Str → Option F) (st : CellSt F) (line : Str) : Except Err (CellSt F) := do
  let c ← orErr .IndexError line[0]?
  if isDigit c then
    let dict ← match st.cur with
      | none => pure st.dict
      | some cur => finishCell flt st.dict cur
    let cur ← startCell flt (splitOn ' ' (stringCleaner line))
    pure ⟨dict, some cur⟩
  else if isContinueLine line then
    match st.cur with
    | none => pure st
    | some (cell, geom) => pure { st with cur := some (cell, geom ++ [line]) }
  else pure st

/-- mcnp_input_reader.py:321-350 `process_cell_block`; without any cell `process_geom` is called with None. -/
def processCellBlock (flt : Str → Option F) (bloc : List Str) : Except Err (Dict Int (Cell F)) := do
  let st ← bloc.foldlM (cellStep flt) ⟨[], none⟩
  match st.cur with
  | none => .error .AttributeError
  | some cur => finishCell flt st.dict cur

/-- mcnp_input_reader.py:353-355 `get_cell`. -/
def getCell (n : Int) (cells : Dict Int (Cell F)) : Option (Cell F) := cells.get n

/-- mcnp_input_reader.py:358-360 `cells_with_mat`. -/
def cellsWithMat (m : Int) (cells : Dict Int (Cell F)) : List (Cell F) := cells.values.filter (fun c => c.mat == m)

/-- mcnp_input_reader.py:363-365 `cells_with_surface`. -/
def cellsWithSurface [DecidableEq F] (s : F) (cells : Dict Int (Cell F)) : List (Cell F) :=
  cells.values.filter (fun c => decide (s ∈ c.surfaces))

/-- mcnp_input_reader.py:368-370 `get_mat`. -/
def getMat {M : Type} (n : Int) (mats : Dict Int M) : Option M := mats.get n

/-- mcnp_input_reader.py:373-375 `is_valid_number`. -/
def isValidNumber (num : Int) (maxNum : Int := 99999999) : Bool := decide (num ≤ maxNum)

/-- mcnp_input_reader.py:378-400, the five checks with the default limit. -/
def isValidMatNum (n : Int) : Bool := isValidNumber n
def isValidSurfNum (n : Int) : Bool := isValidNumber n
def isValidCellNum (n : Int) : Bool := isValidNumber n
def isValidTallyNum (n : Int) : Bool := isValidNumber n
def isValidUniverseNum (n : Int) : Bool := isValidNumber n

/-- mcnp_input_reader.py:403-405 `is_number_of_tallies_valid`. -/
def isNumberOfTalliesValid (n : Int) : Bool := isValidNumber n 9999

/-- mcnp_input_reader.py:408-413 `check_cell_mat_exists`. -/
def checkCellMatExists {M : Type} (cell : Cell F) (mats : Dict Int M) : Bool := (getMat cell.mat mats).isSome

/-- mcnp_input_reader.py:416-421 `check_cell_exists`. -/
def checkCellExists (n : Int) (cells : Dict Int (Cell F)) : Bool := (getCell n cells).isSome

/-- Value of a material keyword: text, or a list for several "=". -/
inductive KwVal
  | one (s : Str)
  | many (l : List Str)
  deriving DecidableEq, Repr

/-- mcnp_input_reader.py:94-103 `mcnp_material`; an absent keyword dictionary (None) is the empty one. -/
structure Material (F : Type) where
  number : Int
  composition : Dict Str F
  keywords : Dict Str KwVal
  numNuclides : Nat
  thermal : List Str
  mx : List Str
  deriving DecidableEq, Repr

/-- mcnp_input_reader.py:481-497 `process_material_keyword`. -/
def processKeyword (kws : Dict Str KwVal) (entry : Str) : Dict Str KwVal :=
  let parts := splitOn '=' entry
  kws.set (parts.headD []) (if parts.length = 2 then .one (parts.getLastD []) else .many (parts.drop 1))

/-- mcnp_input_reader.py:525-529 `check_valid_mat_keyword`. -/
def validKeywords : List Str :=
  [p!"plib", p!"hlib", p!"gas", p!"estep", p!"hstep", p!"nlib", p!"pnlib", p!"elib", p!"alib", p!"slib", p!"tlib", p!"dlib",
   p!"cond", p!"refi", p!"refc", p!"refs"]

/-- mcnp_input_reader.py:519, the dict comprehension over pairs. -/
def pairs (flt : Str → Option F) : List Str → Dict Str F → Except Err (Dict Str F)
  | [], d => .ok d
  | [_], _ => .error .IndexError
  | k :: v :: rest, d => do
    let x ← orErr .ValueError (flt v)
    pairs flt rest (d.set k x)

/-- mcnp_input_reader.py:500-522 `process_material_line`. -/
def processMaterialLine (flt : Str → Option F) (line : Str) (num : Int) : Except Err (Material F) := do
  let words := (splitOn ' ' line).drop 1
  let kws := (words.filter (fun w => hasSub p!"=" w)).foldl processKeyword []
  if kws.keys.any (fun k => !validKeywords.contains k) then .error .ValueError
  let comp ← pairs flt (words.filter (fun w => !hasSub p!"=" w)) []
  pure ⟨num, comp, kws, comp.length, [], []⟩

/-- mcnp_input_reader.py:462-464, the test for the first line of a material. -/
def matStart (n : Int) (line : Str) : Bool :=
  match line with
  | 'm' :: b :: _ => isDigit b && ((splitOn ' ' line).headD []).drop 1 == intStr n
  | _ => false

/-- mcnp_input_reader.py:442-478 `read_material_lines`. -/
def readMaterialLines (flt : Str → Option F) (n : Int) (lines : List Str) : Except Err (Material F) := do
  let text := stringCleaner (join p!" " (scan (matStart n) false lines))
  let m ← processMaterialLine flt text n
  pure { m with thermal := getCardLines lines (p!"mt" ++ intStr n), mx := getCardLines lines (p!"mx" ++ intStr n) }

/-- mcnp_input_reader.py:545-551 `is_card_present`. -/
def isCardPresent (lines : List Str) (card : Str) : Bool := lines.any (fun l => startsWith (lower l) (lower card))

/-- mcnp_input_reader.py:116-126 `mcnp_tally`; `hasSd` and `hasFc` are the attributes set at lines 645-646, which are not the
    declared `has_sd_card` and `has_fc_comment`. -/
structure Tally where
  number : Int
  talType : Str
  data : Str
  hasEbins : Bool := false
  hasTbins : Bool := false
  hasFm : Bool := false
  hasSdCard : Bool := false
  hasFcComment : Bool := false
  hasSd : Bool := false
  hasFc : Bool := false
  deriving DecidableEq, Repr

/-- mcnp_input_reader.py:594-605 `process_tally_line`. -/
def processTallyLine (line : Str) (n : Int) : Tally :=
  { number := n, data := line, talType := ((splitOn ':' ((splitOn ' ' line).headD [])).headD []).drop 1 }

/-- mcnp_input_reader.py:628-631. -/
def talStart (n : Int) (line : Str) : Bool :=
  match line with
  | 'f' :: b :: _ => isDigit b && (splitOn ':' (((splitOn ' ' line).headD []).drop 1)).headD [] == intStr n
  | _ => false

/-- mcnp_input_reader.py:608-648 `read_tally_lines`. -/
def readTallyLines (n : Int) (lines : List Str) : Tally :=
  let t := processTallyLine (stringCleaner (join p!" " (scan (talStart n) false lines))) n
  { t with
    hasEbins := isCardPresent lines (p!"e" ++ intStr n ++ p!" ")
    hasTbins := isCardPresent lines (p!"t" ++ intStr n ++ p!" ")
    hasFm := isCardPresent lines (p!"fm" ++ intStr n ++ p!" ")
    hasSd := isCardPresent lines (p!"sd" ++ intStr n ++ p!" ")
    hasFc := isCardPresent lines (p!"fc" ++ intStr n ++ p!" ") }

/-- mcnp_input_reader.py:44-52 `mcnp_surface`. -/
structure Surface where
  number : Int
  surfType : Str
  params : List Str
  transform : Option Str
  deriving DecidableEq, Repr

/-- mcnp_input_reader.py:725-730 `check_surf_transform`. -/
def checkSurfTransform (words : List Str) : Except Err Bool := do
  let w ← orErr .IndexError words[1]?
  pure (strIsDigit w)

/-- mcnp_input_reader.py:703-722 `process_surface_line`. -/
def processSurfaceLine (line : Str) : Except Err Surface := do
  let words := splitOn ' ' (lower line)
  let w0 ← orErr .IndexError words[0]?
  let n ← orErr .ValueError (pyInt w0)
  let tr ← checkSurfTransform words
  let s ← if tr then do
      let ty ← orErr .IndexError words[2]?
      let t ← orErr .IndexError words[1]?
      pure (⟨n, ty, words.drop 3, some t⟩ : Surface)
    else do
      let ty ← orErr .IndexError words[1]?
      pure (⟨n, ty, words.drop 2, none⟩ : Surface)
  if isSurfaceTypeValid s.surfType then pure s else .error .ValueError

/-- mcnp_input_reader.py:681-693, the loop of `process_surface_block`. -/
def surfStep (st : Dict Int Surface × Str) (line : Str) : Except Err (Dict Int Surface × Str) :=
  if isContinueLine line then .ok (st.1, st.2 ++ p!" " ++ stringCleaner line)
  else if strip line = [] then .ok st
  else if startsWith (lower line) p!"c" then .ok st
  else if st.2.length > 0 then do
    let s ← processSurfaceLine st.2
    pure (st.1.set s.number s, stringCleaner line)
  else .ok (st.1, stringCleaner line)

/-- mcnp_input_reader.py:677-700 `process_surface_block`. -/
def processSurfaceBlock (bloc : List Str) : Except Err (Dict Int Surface) := do
  let st ← bloc.foldlM surfStep ([], [])
  if st.2.length > 0 then
    let s ← processSurfaceLine st.2
    pure (st.1.set s.number s)
  else pure st.1

/-- mcnp_input_reader.py:8-27 `mcnp_input`. -/
structure Input (F : Type) where
  filePath : Str
  cellBlock : List Str
  surfaceBlock : List Str
  dataBlock : List Str
  cells : Dict Int (Cell F)
  surfaces : Dict Int Surface
  comments : Dict Nat Str
  mode : Option (List Str)
  talNums : List Int
  matNums : List Int
  materials : Dict Int (Material F)
  tallies : Option (Dict Int Tally)
  isVoid : Bool
  isKcode : Bool
  isSdef : Bool
  isPtrac : Bool

/-- mcnp_input_reader.py:664-666, the loop over the materials. -/
def readMaterials (flt : Str → Option F) (lines : List Str) : List Int → Dict Int (Material F) → Except Err (Dict Int (Material F))
  | [], d => .ok d
  | n :: ns, d => do
    let m ← readMaterialLines flt n lines
    readMaterials flt lines ns (d.set m.number m)

/-- mcnp_input_reader.py:668-672, the loop over the tallies. -/
def readTallies (lines : List Str) (ns : List Int) : Option (Dict Int Tally) :=
  match ns with
  | [] => none
  | _ => some (ns.foldl (fun d n => d.set (readTallyLines n lines).number (readTallyLines n lines)) [])

/-- mcnp_input_reader.py:733-749 `read_mcnp_input` after the file was read, with 651-674 `process_data_block`. -/
def readLines (flt : Str → Option F) (path : Str) (lines : List Str) : Except Err (Input F) := do
  let (cb, sb, db) ← splitBlocs lines
  let cells ← processCellBlock flt cb
  let surfs ← processSurfaceBlock sb
  let tn ← getTallyNumbers db
  let mn ← getMaterialNumbers db
  let mats ← readMaterials flt db mn []
  pure { filePath := path, cellBlock := cb, surfaceBlock := sb, dataBlock := db, cells := cells, surfaces := surfs,
         comments := getFullLineComments lines, mode := readModeCard db, talNums := tn, matNums := mn, materials := mats,
         tallies := readTallies db tn, isVoid := isCardPresent db p!"void", isKcode := isCardPresent db p!"kcode",
         isSdef := isCardPresent db p!"sdef", isPtrac := isCardPresent db p!"ptrac" }

/-- mcnp_input_reader.py:733-749 `read_mcnp_input`. -/
def readMcnpInput (flt : Str → Option F) (path : Str) : PyM (Input F) := do
  let lines ← getLines path
  PyM.lift (readLines flt path lines)

/-- mcnp_input_reader.py:752-754 `vised_compatible`. -/
def visedCompatible (fname : Str) : PyM Unit := textReplace fname p!"mphys" p!"c mphys"

end McnpInput

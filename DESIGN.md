# Verification design for neutron_tools

Source under study: `/repo` (py1sl/neutron_tools, Python, read as text only).
Proof system: Lean 4 (toolchain 4.33.0) with Mathlib. Lake project in `lean/`.

## 1. Layout

| directory | contents |
|---|---|
| `lean/Verif/Py/` | the part of Python the code relies on: strings, slices, splitting, files, dictionaries, exceptions |
| `lean/Verif/Model/` | one file per Python module; every definition cites file and lines |
| `lean/Verif/Spec/` | small specifications that do not mention the model |
| `lean/Verif/Proofs/` | helper lemmas |
| `lean/Verif/Props/` | property theorems `Cxx_...`, and `example`s showing that the hypotheses can be met |

## 2. Modelling decisions (common)

* **Strings.** A Python `str` is a `List Char` (`Str`).  Lean `Char` excludes surrogate code points; files that
  do not decode are outside the model (reading them is an error in Python before any modelled code runs).
* **White space** is Python's full `str.isspace` set; **line boundaries** are the full `str.splitlines` set.
  `lower`/`isdigit` are modelled for ASCII only (non-ASCII characters are left alone / are not digits).
* **Text files.** A file system is a map from path to file/directory plus a predicate of writable paths.
  `open(p)` + `read` applies universal-newline translation; `open(p,'w')` writes `\n` (POSIX).
  A write replaces the whole content. Interrupted writes (disk full half way) are not modelled.
* **Floats.** `float(str)` is an arbitrary partial function `flt : Str → Option F`; every theorem about a parser
  holds for every such function. Arithmetic is done over ℝ (geometry, conversions) or over an arbitrary
  linear ordered field. IEEE rounding and overflow are not modelled, nor is the `float32`
  downcast of `pandas.to_numeric` except where it decides which rows are found (C203, C245).
  NaN is modelled (as `none`) where comparisons with NaN decide the outcome.
* **Exceptions** are values: `Except Err α`. Loops with early exit are recursive functions over lists.
* **Non-terminating loops** are modelled by a step relation, so that divergence is provable.
* **DataFrames** are lists of row structures; label alignment is modelled only where the code relies on it.
* **Logging** calls are no-ops, except in the model of the logger set-up itself. `print` is a no-op.
* **Plotting.** A figure is the list of curves, bars, cells, limits and labels handed to matplotlib, together with the
  checks matplotlib makes on their lengths. Rendering and the writing of the image are outside the model.

Statements that the code violates are kept as stated in `properties.jsonl`. For them there is a theorem
`..._violated` (negation with a concrete witness, proved about the model) and a theorem `..._partial` for the part
that does hold; the manifest status is `partial`.

## 3. Plan per property

(F) = modelled function by function; "spec" = independent specification used in the theorem.

### neut_utilities.py
* C01, C02 — F: `write_lines`, `get_lines` over the file system model. Spec: `IsLineBreak` character predicate and a
  declarative description of "cut at line boundaries". Proof: induction over the content.
* C03, C05 — F. Spec: least index such that the prefix / infix relation (`<+:`, `<:+:`) holds.
* C04 — F. Spec: inductive description of "words of a text" (blocks of non-space separated by spaces).
* C06 — F (numpy `nonzero`/`where` on a one dimensional list). Spec: least index.
* C07 — violated (the loop does not stop when a first element chain reaches an empty list). Loop as step relation.
* C08 — F; byte-for-byte part violated for CRLF files (universal newlines). Spec of replacement: inductive relation
  "leftmost non-overlapping occurrences replaced".
* C09 — F over ℝ.
* C10 — F. * C11 — F: logger state = list of handlers; histories = lists of calls.

### output_utilities.py
* C12, C14 — F `wrap_tokens`. Spec: words of text. C13 — violated (long prefix, or continuation prefix + token > width):
  witness and exact-condition partial.
* C15 — composition with `get_card_lines`.
* C16, C17 — F over the file system. C18 — violated: `ut.write_html` does not exist, so every call raises.

### ofile_reduce.py, lost_points.py
* C19, C20 — F over the file system.

### fispact_printlib_reader.py
* C21 — F. C22, C23 — F; C23 violated: a file without the run time line gives UnboundLocalError (not IOError).

### xsdir_reader.py
* C24, C25 — F, dictionary = insertion ordered association list. Spec: last matching line.
* C26 — violated: the path is lower-cased. Partial: exact up to lower-casing, hence exact for lower-case paths.

### mcnp_ptrac_reader.py
* C27 — F, encoder written as spec, decode∘encode = id. C28 — equality with a non-event is truthy (returns the class
  `NotImplementedError`): violated; rest proved. C29, C30 — F.

### neut_constants.py
* C31 — violated for Bq/Ci and s/year; others proved. C32 — violated for shake_to_ms; rest proved. C33 — the table is
  copied into the model and the bijection is proved for all keys.

### fispact_fluxes_writer.py
* C34 — F over a linear order. C35 — tables copied as exact decimals. C36 — F.
* C37 — violated: spectra whose values are not ascending are rejected. C38 — violated: 162 table is in eV.

### mcnp_analysis.py
* C39–C42 — F over an ordered field.

### fispact_analysis.py
* C43–C48 — F. C48: behaviour of pandas `apply(axis=1)` on an empty frame is a parameter of the model.
* C49 — violated: `oos_path` is ignored. C50 — violated: Z=118 and A=294 fall outside the array.

### meshtal_analysis.py
* C51, C53, C57, C58, C61, C63, C66 — F. C52 — violated in the non-uniform branch (always raises).
* C54 — violated on non-uniform meshes; partial for uniform ones. C55 — violated for 0. C56 — violated for errors.
* C59 — violated for five-column meshes; C60 — violated (quadrature of relative errors).
* C62 — violated (KeyError when none). C64 — violated (second energy mesh); C65 — violated (last mesh).

### fispact_output_reader.py
* C67, C69–C77 — F. C68 — violated (StopIteration escapes). C69 — year length differs from `neut_constants`.

### mcnp_input_reader.py
* C78, C80–C83, C86–C88, C91 — F. C79 — violated at exactly 80. C84 — violated. C85 — violated. C89 — violated.
* C90 — violated for sd/fc attributes. C92 — violated.

### mcnp_output_reader.py
* C93 — violated for 5+ digits. C94–C100, C102, C103, C105 — F. C101 — violated. C104 — violated.

### r2s_cell.py
* C106 — `mc_output` has no default (attribute is misspelt). C107–C109, C111 — F. C110 — violated.

### geom_utils.py
* C112, C115, C119–C122, C124–C128 — F over ℝ; spec via Mathlib (Lebesgue measure, derivatives, inner products).
* C113 — violated (operator precedence). C114 — violated. C116 — violated on one side. C117 — raises LinAlgError for
  planes whose line has constant z. C118 — `o` is not fixed. C123 — violated for a zero leg. C126 — x = 0.

### Properties added while the model grew (C129-C320)

* C129, C130 (output of an inventory as material) - F on the text columns of the reader; both violated, witness for all inventories.
* C131, C158-C161 (fispact plots) - F: the figure as data (curves, wedges, labels); spec: the pairs (time, value) of the table.
* C132-C135 (FISPACT 07 summaries, dominant table, time steps, whole files) - F; spec: a file is written block by block, reader inverts it.
* C136 - relation "same card with comment lines inserted", induction over the lines.
* C137, C174 - F on `XSDir`. C138-C143, C162-C167, C186, C187, C190-C192 (mcnp_output_reader) - F; specs are declarative
  layouts of the blocks (`AngBlock`, `EnergyRow`, ...) with arbitrary inert lines between them; proofs by induction over blocks.
* C144, C145, C193 - F on the file system model. C146-C155 (mcnp_analysis plots) - F, figure as data over an ordered field.
* C156, C157 - constants and factors against CODATA/SI values as exact rationals.
* C168-C173, C188, C194 (mcnp_input_reader: whole file, further cards, descriptions, stubs) - F.
* C175-C177 (mesh plots) - F, figure as data. C178, C179 - F. C180, C181 (magic) - F, availability of `np.float` is a parameter.
* C182 - F; spec `Entries`: the numbers of the marked lines, in order. C183 - F; spec: inductive `LeadsTo` on paths.
* C184, C185, C189 - F.
* C195 - F: whole tallies through `read_tally_in`, the reader chosen from the type; spec `NoResults` and the layouts of the readers.
* C196-C198 - F; specs as for C138-C143, several surfaces or cells. C199 - F on the file system model; spec: rows with their line ends.
* C200 - the 285 rows of data/t1.txt as data, theorems over all nuclides, activities, masses and orders of the rows.
* C201, C202 - F; spec: lines of pairs and continued lines as in the MCNP manual.
* C203 - violated; spec: numbers with 24 binary digits (Binary32).
* C204 - violated; spec: blocks of times, values and errors.
* C205 - violated; spec: IsWords.
* C206-C217 - forms of cards that MCNP allows and the reader does not; F on the card reader. Specs: `IsWords`, words of a geometry as
  an inductive relation (`GeomWord`), cards anywhere in a block (`Behind`).
* C218 - over ℝ; spec: h / √(2 m E) with the values of CODATA 2018.
* C219 - F, the legend as a list of curves and names; specs: membership, the objects of the tables (`objects`), layout of the bins (`ByAngle`).
* C220 - relation `DataWF` widened by blank lines; the selections commute with the removal of empty rows (`filled`).
* C221, C222 - composition of the summary reader with the plots: `summaryTable` gives the columns their names; spec: the lists `quantities`,
  `timeUnits` and `inventoryColumns`.
* C223 - the whole of `plot_nuc_chart` around the array of C50; specs: the columns needed (`ChartCols`), order relations between the values.
* C224-C227 - composition of the output reader with the charts, pies and spectra; specs: mass numbers with and without the letter of an isomeric
  state (`IsMass`, `IsIsomer`, `IsGround`), a pie over rows (`IsPie`), the columns of the file.
* C228 - the broadcasting of numpy on a matrix and an array (`divMatrix`); specs: `BinWidth` and `Density` of C151, `TimeBin`.
* C229 - no new definitions in the model; specs: `PrintedNuclide` (the columns of a nuclide in an inventory), `Clears` (activity per gram of the mass in the file), `Level` of C47.
* C230-C234 - no new definitions in the model; specs: `Spec/Ptrac.lean` (the identifiers of the variables of each kind of event, from the MCNP manual and the header of the test file), `PtracTracks`, `PtracHeader`.
* C134 (all fields), C235 - no new definitions in the model; specs: `NumberAt`, `FieldAt`, `stepNumbers`, `gasNumbers`, `ActiveOf` (label, distance, columns and width of every number of a time step), `DropsE`, `RejectsDropped`, `StepNumber`, `ActiveNumber` (Props/StepFields).
* C236, C237 - Model/FispactObjects.lean (`StepObject`, `OutObject`: the attributes that only `__init__` assigns), `uncertaintyTable` in Model/SummaryTable.lean; specs: `CoolingLine`, `FluxPrinted`, `uncertaintyColumns`, `UncertaintyPrinted` (Props/FispactObjects).
* C238 - no new definitions in the model; specs: `XyzHeading`, `NumberLine` (Props/MeshForms).
* C239, and more on C147, C151, C154, C199, C200, C223 - no new definitions in the model; specs: `cellFolder`, `CellReady`, `FolderFree` (Props/R2sRun), Spec/OosLevels.lean (data/t1.txt arranged by level).
* C240 - no new definitions in the model; specs: `etPairs`, `EtPrinted` (energy and time bins as MCNP prints them; Props/EtCharts).
* C241, C242 - no new definitions in the model; specs: `SameLines`, `ReadsOnly` (Props/ReadersLocal), `WritesOnly` (Props/WritersLocal).
* C243 - Model/TableEffects.lean (`output_mcnp_mat` on a table, with the argument afterwards); specs: `HasColumn`, `columnsOf` (Props/TableEffects).
* C244 - Model/PtracMean.lean (`mean_num_events` of the list that `read_ptrac` returns); specs: those of C233 and C234 (Spec/Ptrac, Props/PtracFormat).
* C245 - Props/MeshDowncast.lean (model Model/MeshDowncast.lean); specs: `RoundsTo24`, `TellsApart`, `SameBins`.
* more on C17, C18, C44, C147, C151, C152, C199, C228 - Props/Tighten5.lean; specs: `el`, `trow`, `tableLines` (Spec/Html), `reportSection` (Props/Tighten5).
* more on C51, C152, C221 - Props/Tighten6.lean, Props/Tighten7.lean, Props/SummaryCooling.lean; spec: `RoundedTo5`.
* C246 - no new definitions in the model; specs: `cellSum`, `cellErr`, `SameVoxel`, `Aligned`, `SumOutcome`, `sliceSum` (Props/MeshSum).
* C247, C248 - no new definitions in the model; specs: `SameButCase`, `SameCells`, `SameInput`, `BothOr` (Props/LetterCase), `SameWords`, `Spaced`, `CellSpaced`, `SameMaterial`, `SameMaterials`, `SameRead` (Props/Spacing).
* C249 - Model/MatCard.lean (text of an identifier); specs: `matCard`, `CardNumber`, `matEntries` (Props/MatCard).
* C250-C252 - no new definitions in the model; specs: `Moved`, `inUnit` (Props/GeomShift), `TurnedTo` (Props/GeomTurn).
* C253, C254 - no new definitions in the model; specs: `Reducible` (Props/Reduced), `DataCard`, `cardName`, `DataCards`, `SameContent` (Props/CardOrder), `Extends` for C52 (Props/Tighten8).
* C255, C256 - no new definitions in the model; specs: `FullCell`, `NoCell`, `cardNumber`, `OneNumber`, `Ignored`, `SurfCard`, `NoSurface` (Props/BlockOrder), `SameButComments`, `SameCards` (Props/NoComments).
* C257, C258, C259 - no new definitions in the model; specs: `timesRow`, `timesMesh`, `timesSlice`, `timesItem`, `timesRes`, `SameShare` (Props/Scale), `unitRow`, `unitMesh`, `unitPoint`, `unitSlice` (Props/MeshUnits).
* C260-C263 - no new definitions in the model; specs: `PlainTitle`, `Silent` (Props/InputEnds), `Printed`, `PrintedOk`, `printedLines`, `OwnHeads` (Props/TallyOrder).
* C264-C269 - no new definitions in the model; specs: `NotContinued`, `MphysOff` (Props/Vised), `Typed`, `CellTyped` (Props/Tabs), `HistoryLine` (Props/PtracParts).
* C270-C272 - no new definitions in the model; specs: `Commented` (Props/InlineComments), `SameRows` (Props/VoxelOrder).
* C273, and C263 for whole files - no new definitions in the model; specs: those of C64, and `Surrounding` (Props/TallyFile).
* C274 - no new definitions in the model; specs: `Report`, `FailsWith`, `WithoutCells` (Props/Faults).
* C275, C276 - no new definitions in the model; specs: `SamePlane`, `SameSide` (Props/GeomForms).
* C277 - no new definitions in the model; specs: `CutAt`, `Begun` (Props/CutOff).
* C278 - no new definitions in the model; specs: `Trailing`, `TrailingText`, `TrailingLine` (Props/Trailing).
* C279 - no new definitions in the model; spec: `NamedOnce` (Props/EntryOrder).
* C280 - no new definitions in the model and no new specs (Props/FileEnds).
* C281 - no new definitions in the model; spec: `OnePlace` (Props/ChartOrder).
* C282 - no new definitions in the model; specs: those of C112 to C128 (Props/GeomAgree).
* C283 - no new definitions in the model; spec: `OnePlace` (Props/InvParts).
* C284 - no new definitions in the model; specs: `Decayed`, `Raised` (Props/Decay).
* C285 - no new definitions in the model; specs: `firstText`, `nextText`, `FitsInto` (Props/FewestLines).
* C286, C287 - `Programs` (Model/Programs): the blocks under `if __name__ == "__main__":`, as functions of the parsed arguments; specs: `EndsBadly`,
  `NoFile` (Props/Programs), `WritesOnly` (Props/WritersLocal).
* C288 - no new definitions in the model; `FullCell`, `SurfCard`, `cardNumber` (Props/BlockOrder), `Card` (Spec/McnpInput).
* C289 - no new definitions in the model; specs: `totalMesh`, `IsRoot` (Props/MeshTotal), `Aligned` (Props/MeshSum).
* C290 - no new definitions in the model; specs: `eDist`, `eLen` (Props/Geom1).
* C291 - no new definitions in the model; no specs beyond the number of lines.
* C292 - no new definitions in the model; specs: `Denotes` (Props/MeshtalAnalysis).
* C293 - F (Model/McnpOutputDebug); spec: `IsTallyFile` (Props/McnpOutputDebug).
* C294 - F (Model/Programs); spec: `Repeats` (Props/Repeats).
* C295 - F; spec: `StepText`, `StepEnds` (Props/StepsAlone), `StepLine`, `StepChunk` (Props/FispactOutput3).
* C296 - F; spec: `NoMcnp`, `McnpFile`, `NoFispact`, `FispactFile` (Props/Behind).
* C297 - F; spec: NoMcnpFront (a line in which the reader of MCNP outputs looks for nothing), shiftTables (line numbers of print tables further down), StepText, StepLine, VersionSeen (FISPACT 07 named among the first fifty lines or not at all).
* C298 - F; spec: SameTally (equal but for the order of the surfaces of a tally of type 1), SameOutput (equal but for the order of the tallies), List.Perm for the orders of a set, CellReady and FolderPart of C239.
* C299 - F; spec: pointOf (a point by its coordinates), PlaneIs (the axes of a plane by name); lines, points and arrays are compared with each other.
* C300 - F; spec: CleanMaterials (lines that begin with m and a digit are material cards), HasMaterial (there is a card with this number); both by Numbered and NumberedBy of C91.
* C301 - F; spec: List.Perm of the entries of the JSON object; results and file systems of two runs are compared with each other.
* C302 - F; spec: the results of two readings are compared with each other as lists (append, element at an index); files are lists of sections.
* C303 - F; spec: CellHead, GeomWords (cards as in C206); a search has a cell if some element of the list has its number.
* C304 - F; spec: CommaFields (fields of a row between its commas), Spec.IsWords (words of a line).
* C305 - F; spec: CoordsOf (columns of the marked lines), Spec.IsWords; the file is read back after the run.
* C306 - F; spec: Spec.InBin (group between two neighbouring boundaries); two runs of the program are compared with each other.
* C307 - F; spec: BeyondMid (behind the greatest or in front of the smallest mid point), CloseTo (C55); two lookups are compared with each other.
* C308 - F; spec: DirEntry (C24), ThermalHead and ThermalEntry (C137); the places of the lines in the file.
* C309 - F; spec: lines that agree after lowering; the first letter of the headings.
* C310 - F; spec: BeyondBins (above the greatest or below the smallest bin); two results are compared with each other.
* C311 - F; spec: ShortNumber (digits or a point, a sign, digits), RejectsShort (the parser has no value for these), Card and MatHead (C83), IsWords.
* C312 - F; spec: ShortNumber and RejectsShort (C311), EnergyRow (C190), FileOf (C64); the place of the number in its line.
* C313 - F; spec: fractionOf (sum of the fractions given for the nuclide), Card, MatHead and cardWords (C83).
* C314 - F; spec: Blank lines between the blocks (C78), SurfNoise, SurfWords and SurfOf (C88).
* C315 - F; spec: Blank lines between the blocks (C78), Card, TalHead, cardText and IsWords (C90).
* C316 - F; spec: SizeGrows (order of two results), BallBest (36 pi v^2 <= a^3).
* C317 - F; spec: IsWords (words of a text, C04).
* C318 - F; spec: GroupRange (boundaries of a group), InBin (C34).
* C319 - F; spec: none besides prefix and infix of lists.
* C320 - F; spec: NoNumberChar (characters that no number has).

## 4. Trusted base

* **Lean's kernel** (4.33.0). No `sorry`, `native_decide`, `bv_decide`; no axioms of our own.
* **Axioms.** Every theorem depends on a subset of `propext`, `Classical.choice`, `Quot.sound`. The exact set per theorem is in
  `AXIOMS.md` (written by `tools/axioms.py` from `#print axioms`).
* **The transcription** of Python into `Verif/Model` (each definition cites its lines) and **the Python semantics** in `Verif/Py`:
  `str` methods, slices, dictionaries, exceptions, universal newlines, `int()` on text, numpy/pandas calls as described beside each use.
* **Parameters of the model**, over which every theorem is quantified: the float parser `float(str)`, `json.loads`, `strptime`, the
  enumeration order of Python sets, `repr`, whether `np.float` exists, what pandas returns for `apply` on an empty frame.

What is modelled, per Python file (`tools/coverage.py` lists the functions whose lines no definition cites):

| file | modelled | not modelled |
|---|---|---|
| fispact_analysis.py | all functions, data/t1.txt | pandas' own handling of quotes in a csv, image output |
| fispact_fluxes_writer.py | all functions and the program, all tables | argparse itself |
| fispact_input_reader.py | all functions (three of them stubs in the code) and the program | argparse itself |
| fispact_output_reader.py | all functions | float32 rounding of `pd.to_numeric` |
| fispact_printlib_reader.py | all functions | |
| geom_utils.py | all functions, over the reals | rounding, overflow |
| lost_points.py, ofile_reduce.py | all functions and the program | argparse itself |
| magic.py | normalise_mesh, do_magic | the header stubs (they return their argument) |
| mcnp_analysis.py | all functions, figures as data | rendering, image output |
| mcnp_input_reader.py | all functions | non-ASCII case mapping |
| mcnp_output_reader.py | all functions; the debug files of `read_output_file` in Model/McnpOutputDebug (C293) | `\d` beyond ASCII |
| mcnp_ptrac_reader.py | all functions and the program | argparse itself |
| mcnp_run_plot.py | plot_nps_stats | date formatting, image output |
| meshtal_analysis.py | all functions, figures as data | `output_as_vtk` (a stub that logs), colour maps, image output |
| neut_constants.py | all constants and conversions, element table | |
| neut_utilities.py | all functions, logger set-up as a state machine | log text, formatting of log records |
| output_utilities.py | all functions | contents of the HTML page (the writer does not exist) |
| r2s_cell.py | all functions and the program | argparse itself, log text |
| xsdir_reader.py | all functions and the program | argparse itself |

**Comparison of the transcription with the repository's own tests.** `Verif/Tests` repeats unit tests of /repo/tests whose input stands in the
test (MCNP input, utilities, xsdir, ptrac, fluxes, token wrapping, numeric analysis) as `example`s about the model. The tests that read a file of
tests/test_output (MCNP outputs, mesh tallies, a FISPACT output) were compared by evaluating the model on the file text outside the project; every
asserted value agreed. These are tests of the transcription, not proofs; no claim rests on them.

General limits: numbers are exact (no IEEE rounding, overflow, signed zero); files are decoded text; no concurrent access to the file system;
a write either happens completely or fails without effect; memory is unbounded.

## 5. Disagreements between the properties and the code

Each entry belongs to a claim of status `partial`. The text is the note of the manifest; theorem names end in `_violated` (the code does
not do this, with witness) or `_partial` (the part that holds).

* **C07** (get_list_dimensions terminates and describes the nested list). Violated as stated: the loop never ends when the chain of first elements reaches an empty list (C07_violated). The partial theorems characterise the result exactly in all other cases. C07_empty_violated and C07_cases: so for every such list, and there is no third case.
* **C08** (In-place text replacement changes exactly the requested occurrences). Violated for files containing \r: reading normalises newlines, so a CRLF file is rewritten even when nothing matches (C08_violated). Holds for every file without \r; for the others the exact effect is stated. C08_carriage_return_violated: every file with \r is changed.
* **C13** (wrap_tokens respects the line width). Violated: a token that fits the width alone is emitted behind the continuation prefix without checking again, and a long prefix is never broken (C13_violated). The partial theorems show these are the only two ways a line can be too long. C13_prefix_violated, C13_token_violated: they always do; C13_exact gives the exact condition for a prefix not shorter than the continuation text.
* **C15** (Wrapped cards survive the MCNP reader's continuation rule). Violated when the first token does not fit behind the card name: the name stands alone on its line and get_card_lines does not find it (C15_bare_name_violated). Proved for every other case; C15_material shows the material reader accepts the bare name. C15_first_token_violated: so for every such card.
* **C18** (HTML report is written). Violated for every object: html_output ends in ut.write_html, which does not exist, so it always raises and never writes (C18_violated; with fewer than ten test results it raises IndexError before, C18_tests_violated). The lines it makes are a well formed page with a section for each tally (C18_lines_partial).
* **C23** (printlib reader reports malformed input as IOError and never returns a partial table). Violated: a file without the 'fispact run time' line (for instance truncated or empty) ends in UnboundLocalError, not IOError (C23_violated). The partial theorem shows this is the only wrong outcome. C23_other_file_violated: so for every file without that line and without the ' FD ' line.
* **C26** (xsdir data path is returned as written). Violated: the line is lower-cased before the path is cut out, and the path stops at a second '=' (C26_violated). The partial theorem states the exact result. C26_path_violated: so for every path with a capital letter or a second '='.
* **C27** (ptrac decoding inverts the event encoding). Holds for every section with at least one history (C27_decode_partial); an empty section gives [None] (C27_violated).
* **C28** (ptrac event equality is field equality). Field-wise equality holds between events; comparing with a non-event returns the class NotImplementedError, which is truthy (C28_violated).
* **C31** (Unit conversions that come in pairs are mutually inverse). Six pairs are proved inverse. Bq/Ci (2.703e11 and 3.7e-12; exponents wrong) and s/year (365.25 against 365 days) are proved NOT inverse for every non-zero value (C31_violated).
* **C32** (Time conversions agree with each other). Year/day/hour/second chains, linearity and monotony hold; shake_to_ms is a factor 1000 too large against shake_to_second (C32_violated).
* **C37** (MCNP spectrum conversion reverses and is invertible). Holds for spectra whose values never decrease; the code tests the flux values, not the energies, for order and refuses every other spectrum (C37_violated). C37_not_ascending_violated: so for every such spectrum.
* **C38** (Monoenergetic fluxes file puts the particle in the bin of its energy). Proved for the 709 structure. The 162 structure is tabulated in eV, so energies in MeV fall into its lowest group (C38_violated).
* **C48** (Inventory out-of-scope decision is the conjunction over active nuclides). Holds whenever at least one nuclide is active, or pandas returns an empty result for apply on an empty frame; older pandas versions raise ValueError there, so the empty case is a parameter of the model.
* **C49** (First out-of-scope time step). Violated: the limits file given by the caller is ignored in favour of data/t1.txt (C49_violated). Partial: the first passing step with respect to the default file. C49_path_violated: the name of the file makes no difference for any inventory.
* **C50** (Chart of nuclides keeps every nuclide in view). Violated for Z = 118 and A = 294: the default view leaves them out and a larger view raises IndexError (C50_violated). Exact for every other view. C50_error_violated gives the exact condition for the IndexError; C50_oganesson_violated: nothing of Z = 118 is ever shown by default.
* **C52** (Voxel volume). Holds for equally spaced bounds (C52_uniform_partial) and for bounds given as numbers that start at 0 (C52_average_partial). For a non-uniform mesh read from a file the call always raises TypeError (C52_violated), and ValueError whenever an axis with numeric bounds does not start at 0 (C52_numbers_violated) or the first axis has no bounds (C52_no_bounds_violated). Without mid points the average is no number (C52_no_mids_violated).
* **C54** (A point is looked up in the voxel that contains it). Holds for equal intervals and points strictly inside a voxel. With unequal intervals the nearest mid point need not belong to the voxel that contains the point (C54_violated). C54_unequal_violated, C54_unequal_before_violated: every mesh with two neighbouring intervals of different widths has such points.
* **C55** (Energy and time filters select the requested bin). Holds for every request other than 0; the request 0 is treated as no request (C55_violated). C55_zero_violated: for every table.
* **C56** (A slice has the values and errors of its plane). The values and the plane names are right; the relative errors are selected with the wrong axis and come out transposed (C56_violated). For every complete mesh: transposed if the two directions of the plane have the same mid points (C56_transposed_violated), empty if they have none in common (C56_no_errors_violated), ValueError if they have some in common (C56_ragged_violated); right only if the errors are symmetric (C56_right_only_if_symmetric).
* **C59** (Mesh addition adds voxel by voxel). Holds for six-column meshes; five-column meshes always raise UnboundLocalError (C59_violated).
* **C60** (Mesh addition combines relative errors correctly). Violated: relative errors are added in quadrature without weights (C60_violated). The partial theorem shows the reported error is an upper bound and when it is exact.
* **C61** (Conversion to a 3D array is a faithful relayout). Holds for six-column meshes; five-column meshes with data always raise IndexError (C61_violated).
* **C62** (Zero voxel count). Holds when there is a zero voxel; otherwise KeyError instead of 0 (C62_violated).
* **C64** (Mesh tally files with any number of meshes are read completely). Holds when only the first mesh of the file is of energy type and has no total rows. An energy mesh after the first one always raises ValueError (C64_violated), as does a total row in an energy mesh (C64_violated_total). Rows of a time mesh whose time bin ends at 0 are left out as if they were totals (C64_time_zero_violated).
* **C65** (Selecting one mesh of a file). Holds for meshes followed by another mesh (the data stay unconverted); a request for the last mesh returns the list of all meshes (C65_violated).
* **C68** (Summary block location). Location and the ValueError for a missing banner are proved; a missing '0 Mass' line raises StopIteration instead of ValueError (C68_missing_end_violated). C68_all_violated: for every file with the banner.
* **C69** (Time columns are consistent). Consistency and preservation are proved for every base column other than time_days and time_hours; with those the base is overwritten (C69_overwritten_base_violated; for all tables C69_days_violated and C69_hours_violated). The year has 365.4 days where neut_constants.years_to_days has 365.25 (C69_year_length_violated).
* **C74** (Inventory parsing). The statement about names is for lines whose only white space is blanks.
* **C76** (Parameter line parsing). 'First word' is the text up to the first blank after stripping, between the first and second '='.
* **C79** (Long line report). Violated at exactly 80 characters: the line is reported although it is not longer than 80 (C79_violated). Proved for files without 80 character lines, and the exact behaviour in C79_reports_from_80. C79_eighty_violated: every such line without comment.
* **C84** (A material that is not defined is reported). Violated: an undefined material and a material card without entries give the same object (C84_undefined_violated). Distinguishable from every defined material with at least one entry.
* **C85** (Cell cards spread over several lines are read completely). Violated: a continuation line never adds surfaces (C85_surfaces_lost_violated, for all lines), and an importance for two particles is stored for the first only. Proved for cards whose continuation lines hold one importance each.
* **C88** (Surface cards). Violated for blank lines with five or more blanks, which count as continuation lines: before the first card the block is refused (C88_blanks_before_violated), behind a card they add an empty parameter (C88_blanks_behind_violated); instances C88_blank_line_violated, C88_separator_violated. Proved for all other layouts.
* **C89** (Inline comments never become surface parameters). Violated for every surface card with an inline comment separated by a blank (C89_violated). Holds for cards without '$'.
* **C90** (Tally cards and their modifiers). The flags are kept in attributes other than the documented ones (C90_documented_flags_violated). Text and presence tests are proved exactly.
* **C92** (vised_compatible is safe to run again). Violated by every file containing mphys: each run inserts another 'c ' (C92_violated). Proved for files without it.
* **C93** (Tally numbers found in the output). Five blanks are required behind '1tally', so numbers of five to eight digits are never found (C93_long_numbers_violated). What is returned is proved exactly, and numbers of up to four digits are always found.
* **C100** (Cell and volume list of a tally). Blank lines other than exactly one blank enter the list as an empty volume, and a number written directly behind 'cell:' is lost (C100_blank_line_violated, C100_no_blank_violated). The lists are proved for lines in the usual layout; when IndexError is raised is proved for all inputs.
* **C101** (Energy and time binned tally blocks are kept per cell). Violated for every cell but the last: the columns of the following cell are glued to its matrix (C101_cells_mixed_violated). Proved for the last or only cell.
* **C103** (Point detector position and result). A blank at the end of the result line or two blanks between value and error make it unreadable (C103_blanks_violated). Proved for entries separated by one blank; position and its errors are proved for all files.
* **C104** (Pulse height tally reports the cell that was tallied). The cell is always reported as 2, and tallies of other cells cannot be read (C104_cell_violated, C104_other_cells_violated). Proved for cell 2 with a single result or with energy bins.
* **C105** (Run date and version). A file of exactly 101 lines is searched beyond its hundredth line (C105_run_date_violated). Proved for every other length; the version is proved for all inputs.
* **C106** (Configuration reading). Every key of the file, every default but one, unknown keys and missing files are proved. Violated: the constructor misspells mc_output (r2s_cell.py:18), so there is no default for it and reading it raises AttributeError.
* **C109** (Activation set-up writes only inside the cell folder). Nothing outside the folder and its parents changes (also for failing runs), the contents after success and the missing FILES file are proved; the contents need a folder not called 'collapse' or 'array', which is so for the folders made by main. Violated: in a folder called 'collapse' the collapse input is overwritten by the empty main input. C109_copy: the copy has the former contents of the source wherever that lies, unless it is one of the inputs written before; a FILES file that is in place already stops the set-up (C109_in_place_violated).
* **C110** (Requested tallies are honoured). Proved: with no request the cells are those of all neutron tallies of type 4. Violated: the tallies (and cells) of the configuration are never looked at. C110_ignored: for every configuration.
* **C111** (A fatal MCNP output is never used). A fatal text, a missing entry or file for the MCNP output or input, and unreadable files are proved to raise and to leave the file system as it was. Violated: a missing files_file entry raises only after the folder of the first cell was made.
* **C113** (Segment-plane intersection point). Violated: the parameter of line 142 divides only the second term, so the returned point is on the plane iff d = 0 or the segment advances by 1 along the normal (C113_not_on_plane_violated). When a value is returned is proved in full (C113_defined); correct point proved for planes through the origin.
* **C114** (Distance between planes). Violated: NaN for parallel planes whose normals have first component 0, 0 for opposite normals, and the caller's second normal is overwritten. Proved for normals of the same direction with non-zero first component, and for intersecting planes.
* **C116** (Plane-sphere intersection circle). Violated: a plane that misses the sphere on the side opposite to its normal gives a NaN radius instead of ValueError. The circle itself (C116_circle) is proved in full, definedness for the remaining planes.
* **C117** (Plane-plane intersection line). Violated: intersecting planes whose line of intersection is parallel to z = 0 raise LinAlgError. Proved for all others; parallel planes always raise.
* **C118** (Rotation about a point). Violated: o is never added back, so o moves to 0 and a full turn shifts by -o. Distances, additivity of angles and the explicit image are proved for every o; identity, full turn and fixed point for o = 0.
* **C123** (Hypotenuse). Violated: a zero leg gives 0 instead of the other leg. Proved for non-zero legs.
* **C126** (Coordinate conversions round trip). Violated: every point with x = 0 raises ZeroDivisionError. Round trips proved for x /= 0; cylindrical/spherical round trips in full (origin: NaN polar angle).
* **C129** (Material output for inventories read from a FISPACT output). Violated for every non-empty inventory of the reader: column A is text there and int + str raises TypeError. Proved: it succeeds exactly if no mass number is text (C129_integers_partial).
* **C130** (Library suffix in the material output). Violated: the lib argument is never used. Proved: every line is identifier and fraction without a suffix (C130_lines_partial).
* **C132** (FISPACT 07 summaries can be read). Violated: any FISPACT 07 summary with rows raises TypeError (text times float); only the empty summary is accepted.
* **C133** (Dominant nuclide table). Rows and lengths are proved exactly; an empty line in the lower half raises IndexError instead of ValueError, in every table (C133_any_violated; instance C133_empty_line_violated).
* **C136** (Comment lines inside a card have no influence). Violated for a comment line consisting of the letter alone (C136_bare_comment_violated). Proved for comments with a blank behind the letter. C136_bare_violated: everything behind such a line is lost.
* **C138** (Surfaces of a type 1 tally are listed in the order of their results). Violated: results do not depend on the order in which the set of surfaces is listed (C138_surface_order_violated). There is no case with several surfaces in which the order is guaranteed; proved if all surface lines name one surface.
* **C139** (Point detectors with user bins can be read). Violated by every file with user bins: ValueError (C139_user_bins_violated). Proved without user bins: energy bins alone and energy with time bins.
* **C143** (Single values of cells follow the order of the cells). A cell whose line is blank or contains 'total' is skipped silently, which shifts the later results (C143_skipped_violated). Proved for type 4 and other cell tallies when every cell has a value line.
* **C144** (FISPACT log check). Only the missing log file is reported. Violated: the log is read but never looked at; every existing log gives 0.
* **C148** (Time axis shows the peak). Proved for one target and increasing times, and for given limits. Violated: with several targets the window lies around the median of the peaks (C148_window), and a peak is hidden exactly if it is more than window bins away from it (C148_far_violated; C148_two_violated: all peaks hidden).
* **C149** (Flux axis shows all curves). Proved for all targets without the total, and for one target with the total. Violated: with the total the limit is 1.05 times the total in the bin of the median peak, and everything larger is cut off (C149_cut_violated): the total itself by any factor (C149_total_violated), and with several targets a target (C149_targets_violated).
* **C150** (Energy-time heat map). The cells are proved for one time fewer than columns (C150_cells). Violated: with one time per column matplotlib refuses the data (C150_shape_violated), and the labels of MCNP are upper boundaries, so in the place of every bin the result of the bin before is shown (C150_late_violated). That the last energy row and the last two columns are never shown follows from the shape.
* **C151** (Spectra per unit energy). Proved for all types but 1 (results with more than one number), for type 1 with angle bins on one surface, and success for tables of type 2 and 4; a wrong number of values raises (C151_mismatch). Violated: currents without angle bins and tables of heating tallies always raise TypeError; of a table with angle bins the keys are drawn. Results that are matrices are C228.
* **C152** (Error bars of spectra). Position and height are proved, for plain spectra of more than one value, and that they are drawn if no bar has a negative length. Violated: the length is that of the bin before; negative values with an error, tallies that are tables and currents in several directions (C152_angles_violated) raise.
* **C153** (Lower energy limit of spectra). The limit is characterised. Violated: it is the upper edge of the first bin with a result, which is therefore always cut off (C153_all_violated), and only the last curve is looked at (C153_other_violated).
* **C154** (Ratio of spectra). Proved for results that are lists of spectra. Violated: plain spectra raise ValueError, tables KeyError; if one of the two is plain, its first number is used for all bins.
* **C155** (Raw spectra and comparison of runs). Proved for lists of equal length and errors that are not negative, and the refusal of any other number of errors but one. Violated: one error for many values is not refused, matplotlib repeats it.
* **C157** (Unit conversions have the right size). Exact and measured conversions are proved apart from activities and shake_to_ms. Violated: both activity conversions are off by more than 10^20; shake_to_ms gives microseconds.
* **C158** (plot_summary draws every value of the chosen column against its time). Proved: the figure is the pairs before the first zero of the column, scaled and labelled as stated (C158_points_partial, C158_label, C158_arguments). Violated: a column that starts with zero raises ValueError, values after a zero are never drawn, and any vertical or horizontal line raises AttributeError because plt.vline and plt.hline do not exist.
* **C160** (plot_pie draws the share of every dominant nuclide). Proved: wedges exactly for the nuclides above the threshold, each the fraction of the sum of those shown. Violated: the fraction is not the percentage of the table, because nuclides below the threshold are left out of the circle. C160_shares_violated: every wedge is then too large.
* **C165** (surfaces and areas of a type 2 tally are all read). The lists are read when they fit on one pair of lines (C165_areas_partial); C165_more_violated: any further pair of surface and area lines is never read, so tallies with more surfaces than fit on one line lose the rest.
* **C169** (thermal and mx cards of a material are all read). First mt and first mx card of the material (C169_cards_partial); C169_second_mx_violated: a further mx card of the same material for another particle is not read.
* **C170** (The calculation type of an input is reported). Right unless both cards are present (C170_type_partial); C170_kcode_violated: every input with an sdef card, kcode or not, is called a fixed source calculation.
* **C171** (is_by_weight tells how a material is given). C171_violated: the attribute is set to True in the constructor and never changed, also for atom fractions. C171_weight_partial: right for materials given by weight. C171_atoms_violated: for every material given by atoms.
* **C172** (Surface checks find wrong entries). C172_violated: the five checks are stubs that always return True; surfaces with no entries are read and pass. C172_accepts_partial: no valid surface is rejected. C172_count_violated: for every surface with a wrong number of entries.
* **C174** (Description of an xsdir). C174_violated: the line break between the number of directory entries and the number of thermal tables is missing. C174_lines_partial: the first three lines.
* **C175** (plot_slice draws every voxel of the plane in its place). Cells, values and, on axes with at least two equal voxels, the place of the cells (C175_cells_partial), errors of the call (C175_mismatch, C175_plane, C175_create). Violated: the axis limits cut off half of the outer voxels (C175_limits_violated), voxels of different widths are drawn between the mid points of their centres (C175_nonuniform_violated), a single voxel has no width (C175_single_violated), and the title names the requested position (C175_title_violated).
* **C177** (Every mesh can be described). Right for meshes whose volume can be computed (C177_counts_partial); C177_violated: printing a mesh from a file with non-uniform first axis raises TypeError.
* **C179** (Comments, irradiation and cooling times of a FISPACT input are found). Violated: all three functions are stubs that return None for every input (C179_violated); that is right only where there is nothing to find (C179_nothing_partial, for comments). C179_any_violated: for every input.
* **C180** (normalise_mesh scales the greatest value to a half). Right for numpy below 1.24 and a positive maximum (C180_half_partial). Violated: np.float no longer exists, so the call raises AttributeError (C180_numpy_violated); a mesh without scores becomes NaN (C180_zero_violated). Normalising again changes nothing if the largest value is positive (C180_again_partial), but turns negative values round (C180_again_violated).
* **C181** (do_magic writes a weight window file). Violated for every input: ut.setup_logging does not exist, so the call raises AttributeError before anything is read or written (C181_violated).
* **C185** (cooling_ts_data returns the cooling steps). Right if the summary has a cooling row (C185_steps_partial); without one all steps are returned (C185_violated).
* **C187** (convert_energy_time_data_to_df labels data that fit and keeps others). Right if some row is not empty and all rows have the same length (C187_convert_partial; C187_rows for all data with a row that is not empty). Violated: no rows at all give a table of missing values (C187_empty_violated), and rows that are too short are filled with missing values if one row has the right length (C187_short_violated).
* **C188** (Numbers of cards are checked against MCNP's range). Right for positive numbers (C188_positive_partial); zero and negative numbers are accepted as well (C188_violated).
* **C189** (evaluate_gq_eq is the equation of the gq card). Right if the last entry is negated by the caller (C189_negated_partial); with the entry itself the value is off by twice the entry (C189_violated), and points inside a sphere get the sense of the outside (C189_sense_violated).
* **C190** (process_energy_lines reads every line of three numbers). Right for three blanks after the energy and one after the result (C190_lines_partial); single blanks raise IndexError (C190_violated).
* **C193** (The FISPACT files of a cell describe the cell). Violated: both files are empty, nothing is run or removed (C193_violated), read_summary returns 1 (C193_summary_violated). Only the error for an unwritable path holds (C193_error_partial).
* **C200** (The shipped limits file is fit for its use). Violated: U230+, Th232sec, U235sec and U238sec are not names of nuclides as FISPACT prints them (C200_names_violated), so U230 is judged by the limit for all others (C200_u230_violated). All other entries are (C200_names_partial), and the remaining parts hold (C200_read, C200_decided, C200_order, C200_unlisted).
* **C201** (Atomic weight ratios of an MCNP xsdir are found by nuclide). Violated for every section of pairs in which no ratio has the same text as an identifier: no nuclide is found under its identifier, the second word of a line becomes the key (C201_pairs_violated). Right for lines of a leading word, an identifier and a ratio (C201_leading_partial).
* **C202** (Entries of the xsdir directory continued on the next line are kept whole). Violated by every continued entry: the + is kept as a field and the continuation becomes an entry of its own (C202_continued_violated). Right for entries on one line (C202_single_partial).
* **C203** (The 3D array of a mesh read from a file holds its values). Violated by every mid point that needs more than 24 binary digits, such as 1.4: its whole layer of the array stays 0 (C203_layer_violated, C203_seven_fifths). Rows whose coordinates are stored exactly are found at their place (C203_exact_partial).
* **C204** (Time bins of a point detector are read). Violated: the result consists of the errors, the error of the values without the first one of every block (C204_time_violated), and the first values appear as energies (C204_energies_violated). The times are right (C204_times_partial).
* **C205** (Print table 60 has one row for each cell). Violated by every file with more than three lines between the last cell and the line of the minimum source weight, as when table 70 is printed: these lines become rows (C205_rows_violated). Right with exactly three lines (C205_rows_partial).
* **C206** (Surfaces of a cell are the numbers of its geometry). Right for words that are numbers joined by colons, with brackets and signs outside, or do not start with a digit (C206_cell_partial, with material, density, comments and importances). Violated: a bracket or sign that stands alone (C206_lone_bracket_violated) or brackets inside a word, as in (1:2)(3:4) (C206_adjoining_brackets_violated), make the block unreadable; in 1:-2 the second surface is stored with its sign (C206_union_sign_violated).
* **C207** (Comments behind a cell card do not change the cell). Right if the comment is one word, or its other words start with no digit, dollar sign or importance (C207_partial). Violated: numbers in the comment become surfaces (C207_comment_number_violated), words such as 2mm or simple make the block unreadable (C207_comment_word_violated, C207_comment_imp_violated), and a comment separated by a blank is stored as the empty text (C207_comment_lost_violated).
* **C208** (Importances on cell cards are read in every form). Right for imp:n=1 (C208_partial). Violated: a blank instead of (C208_blank_violated) or behind the equals sign (C208_equals_blank_violated) makes the block unreadable; imp:n,p=1 is stored for n only (C208_shared_violated).
* **C209** (Parameters of a cell are not surfaces). Right if no word behind the parameter starts with a digit (C209_partial). Violated: further values of the parameter are stored as surfaces (C209_parameter_values_violated).
* **C210** (Cells described by another cell are read). Violated by every such card: the block cannot be read (C210_like_violated, C210_violated).
* **C211** (Cards that start in columns 2 to 5 are read). Right in column 1 (C211_partial) and for surfaces (C211_surface_partial). Violated for cells (C211_indented_lost_violated), materials, tallies and the mode card (C211_data_card_violated): the card is passed over.
* **C212** (Cards continued with an ampersand are read whole). The sign does no harm on a cell card (C212_partial). Violated: the next line is taken for another cell (C212_ampersand_digit_violated) or dropped (C212_ampersand_dropped_violated), and a material card cannot be read (C212_material_violated).
* **C213** (Bins for all tallies are recorded). Right without such cards (C213_partial). Violated: cards for all tallies are not looked for (C213_default_bins_violated).
* **C214** (Every kind of surface card is read). Right for the 37 known types, with a transform and with a white boundary (C214_partial). Violated: reflecting (C214_reflecting_violated) and periodic boundaries (C214_periodic_violated), surfaces given by points (C214_points_violated) and any other second entry (C214_second_entry_violated) make the block unreadable.
* **C215** (Importances in the data block belong to the cells). Right for importances on cell cards (C215_partial). Violated: the data block is not used (C215_data_card_violated).
* **C216** (Every particle of MCNP is valid on the mode card). What is accepted is a particle (C216_partial). Violated: 28 of the 37 particles are rejected, among them deuterons, tritons and alphas (C216_particles_violated).
* **C217** (All tallies of an input are listed). Right for plain cards (C217_partial). Violated: cards with a sign in front are missing (C217_starred_violated), and a letter behind the number makes the input unreadable (C217_ring_violated, C217_file_violated).
* **C219** (The legend names the curves of spectra). Proved: fluxes of cells and surfaces are named by their objects (C219_objects_partial), names of the caller are used in order if no tally has angle bins (C219_given_partial), one current by angle is named by the lower boundaries of its bins (C219_angles_partial), the label of the axis (C219_axis). Violated: angle bins discard the names of the caller, a second tally with angle bins renames the curves of the first, spectra of other types and currents of several surfaces are not named, and two tallies of the same object get the same name. Error bars are left out.
* **C220** (Blank lines of a mesh tally file are no voxels). Violated: every blank line is a row of NaN (C220_blank_violated). Proved: the number of rows (C220_rows_partial), and that the empty rows change no slice, point, line with a common coordinate, count of zeros or array of an energy or time mesh (C220_slice, C220_point, C220_line, C220_zeros, C220_array).
* **C221** (The quantities of a summary can be plotted under their names and with units). The points are proved for all six columns, also for the cooling phase alone (C221_cooling, C221_cooling_partial), and the labels for two. Violated: the labels with units for heat, doses and tritium belong to names that the reader does not give its columns, so asking for them raises ValueError (C221_names_violated) and the actual columns are labelled with their bare names (C221_label_violated); asking for the cooling phase of a summary without one raises ValueError (C221_no_cooling_violated).
* **C222** (plot_nuc_cont draws every column of the inventory with its total and names it). Proved without the total and for the activity and the dose rate with it. Violated: for every other column of the inventory the total raises KeyError, and the axis says bq/kg whatever is drawn.
* **C223** (plot_nuc_chart checks its table and colours from the smallest to the largest value). Checks, title and axes are proved; the scale for values that are not all within 1e-8 of each other. Violated: 1e-8 is added to the lower end, so the smallest value is never on the scale, and for values closer than that the ends are reversed.
* **C224** (Chart of an inventory that was read). Ground states stand in their cells. Violated: isomeric states such as Al26m have a text for a mass number that is no number, so they stand at A = 0 or, in a view above 0, not at all. Views beyond the array are C50.
* **C225** (Pies of the dominant nuclides that were read). The five quantities are drawn when the shown values add up to more than 0. Violated: the columns of percentages and names pass the check and raise KeyError.
* **C226** (Gamma spectra of the time steps that were read). Steps with activity are drawn. Violated: a step without activity has an empty spectrum and raises ValueError.
* **C227** (Names of the elements of a composition). Symbols of two letters are right. Violated: a symbol of one letter keeps a blank and is no key of Z_dict.
* **C228** (Spectra of tallies with energy and time bins). Holds for as many time bins as energy bins, all of the same width. Violated: the widths are laid along the time bins, so other widths give wrong values, other numbers of time bins raise ValueError, and a single time bin is drawn as one curve per energy. Without error bars; a zero width divides by zero.
* **C229** (Out of scope decision for outputs that were read). The names and levels agree with the limits file, and for one kilogram of material the first out of scope step is returned. Violated: the mass in the file is ignored, so steps of heavier materials are passed over and steps of lighter ones returned wrongly. Steps without active nuclides as in C48.
* **C231** (Cell and particle of ptrac events). In files with several kinds of particles the particle is right. Violated: the cell of no event is read (source type, nucleus, surface, ... are stored), and in files with one kind of particle the particle is a cell, reaction, angle or branch.
* **C232** (Type of ptrac events). The types read are those of the file shifted by one event, with the mark of the end behind the last (C232_shifted_partial). Violated: every event has the type of the next one.
* **C233** (Every form of ptrac file is read). Lines of histories with two or three entries and all variables are read. Violated: positions only raises ValueError, four to eight entries raise AttributeError.
* **C235** (Small numbers of a FISPACT output are read). Violated: such a number in the totals or in the inventory of any time step after the first (C235_step_violated, C235_file_violated), in the dominant nuclides, the composition or the spectrum of a step with activity (C235_active_violated) or in the summary (C235_summary_violated) and nothing of the file is read. Only the number of fissions and the gas contents do no harm; their text is kept instead of the value (C235_texts_partial). Assumes that float rejects numbers without E, as Python's does.
* **C236** (Cooling and flux of the time steps). Violated: is_cooling stays False and flux_amp 0 for every step (C236_cooling_violated, C236_flux_violated), num_cool_step 0 and time_days empty for every output (C236_output_violated). Right only for steps that are not cooling and have no flux (C236_default_partial).
* **C237** (Uncertainties of the summary). Violated: the columns exist with one entry for each row (C237_columns_partial), but every entry is None whatever is printed (C237_values_violated).
* **C238** (Mesh tallies of every form are read or refused). Rows with more than six columns, such as volumes, are refused with ValueError (C238_columns_partial). Violated: a file without headings of Cartesian columns - cylindrical meshes, matrices - is read as one mesh without values (C238_empty_violated), and if two or more meshes have no such heading, meshes are lost (C238_lost_violated).
* **C239** (The activation run sets up every tallied cell). Complete, outside, succeeds and again: for every tally and configuration, with the folders of the cells free where success is claimed. The activation code itself and the plots are not run by this function.
* **C240** (Charts of energy and time bins that were read). Energies, times and values are those printed (C240_shape) and time_slice works with or without the total (C240_time_slice). energy_slice and plot_ET_heatmap work with the column of the total only (C240_energy_slice_partial, C240_heat_map_partial, C240_read_partial for point detectors); violated without it, ValueError and TypeError (C240_no_total_violated). The cells of the heat map are those of C150.
* **C241** (Readers look at the lines of their file only and change nothing). For every path and file system, reader by reader. Names that lead to the same file (links, ./) are different paths in the model, and the decoding of bytes is not modelled.
* **C242** (Writers change their file only). For every path and file system, writer by writer. A failure in the middle of the writing (a full disk, a character the encoding lacks) is not modelled, and names that lead to the same file (links, ./) are different paths.
* **C243** (What making a material does to the inventory). The result is that of the row by row description (C243_result, which C45 is about), and a second call gives the same and changes nothing more (C243_again). Violated: the columns Z, ZAID and atoms_norm are added to the caller's table (C243_changed_violated), also when the call fails (C243_failed_violated); every other column is as it was (C243_others_partial).
* **C244** (Mean number of events of a ptrac file that was read). Holds for every file with at least one history (C244_mean_partial). Violated by files without histories: the reader returns a list holding None, and the mean raises AttributeError (C244_none_violated).
* **C245** (Selections work in the precision of the table). Violated when two mid points are rounded to the same number: picking a point of one voxel returns the values of both (C245_two_voxels_violated, with 16777217 and 16777218 as an instance). Holds whenever the rounding tells the coordinates apart (C245_point_partial, C245_line_partial, C245_slice_partial), which rounding to nearest does for numbers further apart than 1 / 2^24 of their sum (C245_apart_partial). That numpy compares a float32 column with a Python float in float32 is part of the model.
* **C246** (Selections of a sum of meshes are the sums of the selections). Holds for six-column meshes whose rows are in the same order; the array also for a square root with sqrt(0) = 0. add_mesh adds by row label and never compares the coordinates, so meshes of equal bounds with rows in another order get sums in the wrong voxels (witness). Five-column meshes cannot be added (C59).
* **C247** (Upper and lower case letters of an MCNP input mean the same). Right for everything but importances: data block (C247_data_partial), surfaces (C247_surfaces_partial), cells up to importances (C247_cells_partial, for a number parser that ignores case as float does) and the whole input (C247_input_partial). Violated: IMP:N=1 is stored for a particle N and not for n (C247_importance_violated).
* **C248** (Blanks between the words of an MCNP card do not matter). Right for lines whose first word starts in column 1 and is followed by a blank, continuation lines and empty lines: cards and mode (C248_card_partial), materials (C248_material_partial), tallies (C248_tally_partial), numbers (C248_numbers_partial), surfaces (C248_surfaces_partial), cell cards even with tabs (C248_cells_partial) and the whole file (C248_input_partial). Violated: with a tab behind the name a material is listed but read without nuclides, and a mode card is not found (C248_tab_violated). Continuation lines of cells are compared as they are.
* **C249** (A material made from an inventory is read back with its nuclides and fractions). Every card made from an inventory is read back with one entry for each identifier, the number 1000 Z + A with `.0` behind it, and the printed fraction (C249_read_partial). Violated: the suffix that was asked for is on no entry (C249_suffix_violated), and nuclides with the same Z and A are merged into the last of them, so fractions are lost (C249_isomer_violated). The text of an identifier (a float because `apply` makes each row one type) is part of the model.
* **C250** (Geometry does not depend on the origin of the coordinates). Holds for points and rays (C250_points_partial), planes (C250_plane_partial, C250_planes_partial), spheres (C250_sphere_partial), circles (C250_circle_partial) and lines of two planes (C250_line_partial). Violated by the three rotations, whose result is relative to the centre and does not move with it (C250_rotate_violated, for every point and every move; C250_rotate_partial), and by the point where a segment meets a plane (C250_segment_violated).
* **C251** (Geometry does not depend on the unit of length). Holds for areas and volumes (C251_areas_partial, C251_volumes_partial), points (C251_points_partial), sides (C251_sides_partial), intersections (C251_meet_partial), coordinates (C251_coordinates_partial) and the slope of a line through points with different x (C251_slope_partial). Violated by the slope through two points above each other (C251_slope_violated) and by the point where a segment meets a plane (C251_segment_violated), for every other unit.
* **C252** (Geometry does not depend on the direction of the axes). Holds for points (C252_points_partial), sides (C252_sides_partial), angles and intersections (C252_meet_partial), the line of two planes under turns about z (C252_line_partial) and the distance of two planes whose normals have x not 0 (C252_planes_partial). Violated by the distance of two planes: every pair of parallel planes can be turned such that it is NaN (C252_planes_violated).
* **C253** (A reduced output file can be read in place of the whole file). Every tally read from the lines of the reduced file is the one of the whole file (C253_tallies_partial), and a reduced file that can be read as a whole has tallies of the whole file only (C253_file_partial). Violated: reading the reduced file as a whole raises ValueError when no "1mcnp" line follows the termination line, since the version is looked up in the part that was cut off (C253_file_violated); a file that ends with another "run terminated" line than "run terminated when" is read but cannot be reduced (C253_other_end_violated).
* **C256** (Comment lines of an MCNP input have no influence). Holds for comment lines that start with c or C and a space (C256_data_partial, C256_blocks, C256_input_partial); the lists of lines kept with the input and the line numbers of comments differ. Violated by a comment line that is the letter c alone, which MCNP allows: it ends the material before it and the nuclides that follow are lost without an error (C256_bare_violated).
* **C259** (Results do not depend on the units of length, energy and time). Holds for points, lines and slices of meshes whose mid points are given in the new unit (C259_point_partial, C259_line_partial, C259_slice_partial), for mid points up to the rounding (C259_mids_partial), for the peak, the spectrum at a time and bins (C259_peak, C259_spectrum, C259_bins). Violated by mid points, which are rounded to five decimals (C259_mids_violated), and by the absolute tolerance of the uniformity test (C259_uniform_violated) and of the choice of an energy (C259_energy_violated).
* **C260** (The title of an MCNP input has no influence). Holds for titles that are not blank and do not start with a digit (C260_title_partial). Violated: a title like "3 0 degrees" is read as a cell that is not in the input (C260_digit_violated), no input with the title "2 spheres" can be read (C260_number_violated), and none with a blank title (C260_blank_violated).
* **C261** (Text behind the end of an MCNP input is not read). Holds for lines that are empty or do not start with a blank or with one of the letters m, f, e, t, s, v, k, p (C261_partial). Violated: the data block goes on to the end of the file, so a material behind the end is reported as part of the input (C261_violated).
* **C262** (An MCNP input with a message block is read). Never read as something else: with a message block whose lines do not start with a digit every input is refused with AttributeError or KeyError (C262_refused_partial). Violated: an input that can be read cannot be read with a message block (C262_violated).
* **C264** (Preparing an input for vised does not change the rest of it). Holds for mphys cards in small letters that start in column 1 and are not continued: for the lines (C264_lines_partial) and for the file before and after vised_compatible (C264_file_partial). Violated: when the mphys card is continued, its continuation line becomes part of the card in front of it, for example of a material (C264_continued_violated).
* **C265** (No mphys card is left for vised). Every mphys in small letters stands behind the letter c and a blank (C265_partial). Violated: MPHYS in capital letters is left as it is (C265_violated).
* **C266** (Tabs replaced by blanks keep the input). Holds when a tab becomes five blanks or more: for each line (C266_line) and for the whole input (C266_input_partial); tabs in continuation lines of cells are left out. Violated: with four blanks the continuation lines of a material are not read (C266_few_violated).
* **C271** (Comments behind data cards have no influence). Holds for comments with a blank before the dollar sign behind data cards (C271_data_partial). Violated without this blank: an input with the card m1$... cannot be read (C271_tight_violated). Comments behind surfaces (C89) and behind cells (C207) are read as part of the card.
* **C272** (The order of the voxels in the table does not matter). Holds for points, lines, counts of zeros and upper and lower values, which come in the order of the table (C272_point_partial, C272_line_partial, C272_counts_partial), and for arrays of tables that list every voxel once (C272_array_partial). Violated: the values of a slice stand in the order of the table (C272_slice_violated), and of a voxel listed for two energies an array has the value listed last (C272_array_violated).
* **C273** (The order of the meshes in a mesh tally file does not matter). Holds for all files without energy meshes behind another mesh (C273_order_partial, C273_files_partial), and for a requested mesh that is not an energy mesh and not the last one (C273_select_partial). Violated: a file with an energy mesh can be read only if it stands first (C273_energy_violated), and a requested mesh that stands last is given together with all the others (C273_last_violated).
* **C274** (Files that cannot be read are reported as such). Holds for the readers of mesh tallies, directories of cross sections, histories for plots and FISPACT inputs, and for shortened outputs and lost points (C274_mesh, C274_xsdir, C274_plot, C274_fispact_input, C274_reduce, C274_lost). The other readers have a complete list of exceptions to the rule: MCNP inputs without cells (C274_input_partial), FISPACT outputs without the line of the mass or of version 2007 (C274_fispact_partial), emission lines without the line of the run time (C274_printlib_partial), PTRAC files with the second line of an event out of place (C274_ptrac_partial), MCNP outputs with the end of an iterator or a missing attribute (C274_output_partial; for which of them is not stated). Each exception has a witness (the _violated theorems).
* **C275** (How the equation of a plane is written does not matter). Holds for normals to the same side (C275_point_partial, C275_circle_partial, C275_planes_partial); with the normal to the other side distances and sides change their sign and lines their direction (C275_point_partial, C275_line_partial), and circles are the same if plane and sphere meet (C275_circle_partial). Violated: parallel planes are recognised only by normals to the same side (C275_angle_violated, C275_distance_violated), a plane beside the sphere is rejected only on one side (C275_circle_violated), and the point of a line segment depends on the factor (C275_segment_violated).
* **C276** (The order of two points, planes or radii does not matter). Holds for points, lengths, radii and angles (C276_pairs_partial) and for lines of two planes (C276_line_partial). Violated: the distance of two planes changes its sign (C276_planes_violated), and the point of a line segment is another one from the other end (C276_segment_violated).
* **C277** (Files that were cut off are noticed). Holds for emission line lists cut at any character (C277_printlib_partial), for FISPACT outputs without the run time line (C277_fispact_partial) and for reduced outputs (C277_reduce_partial). Violated: track files, xsdir files, mesh tally files and MCNP outputs that were cut off are read without an error, with histories, nuclides, voxels or tallies missing (C277_ptrac_violated, C277_xsdir_violated, C277_mesh_violated, C277_output_violated).
* **C278** (Blanks at the end of lines have no influence). Holds for track files (C278_ptrac_partial), xsdir files (C278_xsdir_partial) and the lines of mesh tally files other than those with the number of a mesh (C278_mesh_partial). Violated: a blank behind the number of a mesh is a ValueError (C278_mesh_violated), a print table whose line ends with another blank is not found (C278_tables_violated), and a cell tally whose volume heading lost its blank is a ValueError (C278_output_violated).
* **C279** (The order of nuclear data entries does not matter). Holds for xsdir files in which each name is defined once (C279_directory_partial, C279_thermal_partial, C279_weights_partial) and for the nuclides of emission line lists (C279_lines_partial). Violated: of a table named twice the last entry counts (C279_twice_violated).
* **C280** (Empty lines at the end of files have no influence). Holds for xsdir files, track files, emission line lists, run logs and MCNP inputs (C280_xsdir, C280_ptrac, C280_printlib, C280_log, C280_input), and for MCNP and FISPACT outputs of the form given in C296 (C280_output, C280_fispact). Violated: an empty line at the end of a mesh tally file is one more row of the table of its last mesh (C280_mesh_violated).
* **C281** (The chart of nuclides does not depend on the order of the rows). Holds for inventories in which no two rows stand at the same place of the chart (C281_partial); the colour scale is the same in every order (C281_scale). Violated: all isomeric states of an element are drawn at A = 0, and the last of them is the one that is seen, so that the order decides (C281_violated).
* **C282** (The functions of geom_utils agree with each other). Holds but for planes with opposite normals, whose distance is given as 0 whatever the distances of their points (C282_planes_violated), and for normals without first component (C114); C282_planes_partial is the part that holds for distances between planes. The right triangle of C282_circle is stated for legs that are not 0, see C123.
* **C283** (An inventory put together from two). Holds for selections, presence, scope, materials and inventory lines (C283_filters, C283_present, C283_scope, C283_above, C283_material, C283_lines), for curves of nuclides that are in one of the parts only (C283_curve_partial) and for charts in which no two nuclides stand at the same place (C283_chart_partial). Violated: the curve of a nuclide in both parts is that of the first part (C283_both_violated).
* **C285** (Wrapped tokens use as few lines as possible). Proved: no division has fewer lines (C285_fewest_partial), unless it fills the first line to the last column with a single word. Violated: such a word is put on a second line (C285_exact_violated), because the blank behind the prefix is counted twice.
* **C286** (Programs fail if their input cannot be read). Holds for all programs but one (C286_readers_partial, C286_writers_partial, C286_same). Violated: the program for track files parses its arguments and reads nothing, so it ends well for every name (C286_ptrac_violated, C286_refused_violated). argparse itself is not modelled.
* **C287** (Programs write the file they are told to and no other). Proved for names that are not empty (C287_lost_partial, C287_lost_same), for shortened outputs and for the programs that only read. Violated: an empty output name is taken as none, so lost.3d is written over (C287_empty_violated). The activation script is C109, the program for fluxes C242; writing of images and log files is not modelled.
* **C288** (Numbers used twice are noticed). Violated for every input: of cells and surfaces with the same number the last is kept (C288_cells_violated, C288_surfaces_violated), of materials and tallies the first (C288_materials_violated, C288_tallies_violated), without an exception. Proved: the lists of numbers have the number as often as there are cards, so a caller could notice (C288_listed_partial, C288_tallies_listed_partial).
* **C289** (Several meshes can be added in any order). Proved for meshes with the same voxels in the same rows. Violated: rows are added by their number and not by their place, so for rows in another order the sum depends on which mesh comes first (C289_rows_violated). The error is a relative one and its combination is wrong (C60); meshes with five columns cannot be added (C59).
* **C290** (Small movements, small changes). Proved for distances between points, the point half way, distances from planes, senses of planes (with the sharp limit) and spheres, and hypotenuses of legs that are not 0. Violated by the hypotenuse at a leg of length 0: the result jumps to 0, by at least the other leg (C290_hypotenuse_violated).
* **C291** (Wider lines, not more lines). The two runs of the loop are compared step by step: the one with wider lines has fewer finished lines, or equally many and a current line that is no longer.
* **C292** (Places are looked up in their order). The order needs no assumption on the list of mid points; the neighbours need an increasing list. The distance is half the width of the voxel that contains the place, and 0.000005 for the rounding.
* **C293** (Messages for debugging do not change what is read). Proved where the files of the tallies can be written: the same result or the same exception (C293_same_partial), a file with its lines for every tally (C293_files), no other file changed (C293_others_kept). Violated: where they cannot be written a good output file cannot be read (C293_unwritable_violated); an output file called as the file of one of its tallies is replaced by the lines of that tally (C293_own_violated).
* **C294** (Running a program again changes nothing). Proved for the readers, the fluxes, the reduced output files (also onto the file itself) and the lost points, for every state of the files. The programs are those of Model/Programs and FluxesWriter.main; that the preparation of FISPACT runs can be repeated is C239_again.
* **C295** (Each time step of a FISPACT output is read on its own). Proved for files whose summary stands behind the steps that are replaced and whose first fifty lines, which hold the version, stay; the lines of the two steps contain none of the labels looked for in the whole file (StepText). The lines between the first two start lines belong to no step (C75) and may be replaced as well (C295_first). Lines behind the tables of a step, such as the summary behind the last one, do not change its record either (C295_behind, for steps whose tables end within their lines).
* **C296** (Text behind the results of an output has no influence). For MCNP outputs with their head in the first hundred lines and no tally that begins directly behind the heading of another (McnpFile); for FISPACT outputs whose last step has its tables complete (FispactFile). The lines added contain nothing that is looked for (NoMcnp, NoFispact). An output of 101 lines with its head in the last of them can no longer be read when a line is added, an example shows this.
* **C297** (Text in front of an output has no influence). Partial. The version of MCNP is read from the first line of the file only, so that any line in front of it, even an empty one, hides it (C297_version_violated), and the date is looked for in the first hundred lines; everything else of an MCNP output stays as it was, errors included (C297_mcnp_partial). FISPACT outputs stay as they were (C297_fispact_partial) unless the line that names FISPACT 07 leaves the first fifty lines, in which case the file is taken for one of FISPACT-II (C297_fispact_violated). Mesh tally files stay as they were (C297_mesh).
* **C298** (Results do not depend on the order in which sets are listed). Partial. The tallies of an output are listed in the order of a set, so that the first tally may be another one in the next run (C298_order_violated), and the surfaces of a tally of type 1 are, too (C138). Everything else is the same for every order: the tallies themselves (C298_tally_partial), the rest of the output (C298_output_partial), the tallied cells and the tallies for the activation up to their order (C298_cells, C298_tallied) and, if the FILES file lies outside the folders of the cells and both runs return, all files after the activation (C298_setup, C298_activation).
* **C299** (Points, lines, slices and arrays of a mesh agree). Partial. Columns of slices are lines (C299_column), lines consist of points if every row of the table belongs to a mid point (C299_points), and the array agrees with the points for meshes with six columns (C299_array_partial). A mesh with five columns has points but no array (C299_array_violated).
* **C300** (Cells without a material card are noticed). Partial. For cells with a material the check tells exactly whether there is a card of the material (C300_material_partial, for material cards with a decimal number followed by white space). Void cells, which need no material, fail the check (C300_void_violated).
* **C301** (The order of the entries of a configuration has no influence). Holds for the whole run (C301_run), because the values read are the same (C301_order). The entries have different keys, as those of a parsed JSON object have.
* **C302** (Each mesh of a mesh tally file is read on its own). Partial. Holds for meshes alone, replaced and taken out (C302_alone_partial, C302_replaced_partial, C302_removed_partial) as long as no energy mesh stands behind another mesh. An energy mesh that is read from a file of its own stops the reader with a ValueError behind any other mesh (C302_energy_violated).
* **C303** (The cells of a material and at a surface are found). Partial. Numbers and materials hold for all cards (C303_numbers, C303_material), surfaces for cards whose geometry is written in the way of C206 (C303_surface_partial). A cell with the geometry 1:-2 is not found at surface 2, because the sign is kept (C303_union_violated).
* **C304** (Tables and points that were written can be read back). Partial. Points are read back (C304_points) and so are tables of values without commas (C304_csv_partial). A tally with energy bins has a list as the result of a cell; its text has commas and is written without quotes, so that the row has more than four fields (C304_comma_violated).
* **C305** (The file of lost points belongs to the output that was read). Partial. Holds if at least one particle was lost (C305_lost_partial). If none was lost nothing is written, and the file of an earlier run stays under the same name with the points of another output (C305_old_file_violated).
* **C306** (Energies outside the group structure are noticed). Partial. A caller could notice: the group found contains the energy exactly if check_upper_bound accepts it and it is above the lowest boundary (C306_check_partial). The program does not ask: for every energy above the structure it does the same as for the highest energy (C306_above_violated), and for every energy at or below the lowest boundary the same as for the lowest group, which check_upper_bound accepts as well (C306_below_violated).
* **C307** (Places, energies and times outside a mesh are noticed). Partial. Energies and times other than 0 that the mesh does not have give no value (C307_energy_partial, C307_time_partial). Places behind the last mid point or in front of the first one are moved to it, however far away they are (C307_point_violated, C307_slice_violated, C307_line_violated).
* **C308** (The sections of an xsdir are kept apart). Partial. What stands in front of a section is not in it, and a section that the file does not have is empty (C308_front_partial). A section does not end where the next one begins: entries of the thermal scattering data are in the directory too (C308_thermal_violated), and entries of a directory behind them are in the thermal scattering data (C308_directory_violated).
* **C309** (Upper and lower case letters of an xsdir mean the same). Partial. The data path does not depend on the case of its line (C309_datapath_partial). A directory or atomic weight ratios with a heading that begins with a capital letter are not found (C309_directory_violated, C309_weights_violated).
* **C310** (Energies and times outside the bins of a tally are noticed). Partial. For an energy or time of a bin the values of that bin are taken (C310_bin_partial, C310_slice_partial). An energy or time above all bins or below them gives the result of the outermost bin, however far away it is (C310_time_violated, C310_energy_violated, C310_peak_violated).
* **C311** (Numbers of an MCNP input in the short form of Fortran are read). Partial. Numbers that float reads are the density and the fractions (C311_density_partial, C311_fraction_partial). Cell blocks and material cards with a number in the short form raise an exception (C311_density_violated, C311_fraction_violated), for every parser that rejects these numbers, as float does.
* **C312** (Small results of MCNP are read). Partial. Results that float reads are read bin by bin (C312_energy_partial; for mesh tallies C64_all_partial). One number in the short form makes the energy bins or the whole mesh tally file unreadable (C312_energy_violated, C312_mesh_violated), for every parser that rejects these numbers, as float and pandas.to_numeric do.
* **C313** (Nuclides listed more than once keep their whole fraction). Partial. If no nuclide is listed twice, each has its fraction (C313_once_partial). Of a nuclide that is listed again only the last fraction is kept (C313_twice_violated).
* **C314** (Cells at surfaces without a card are noticed). Partial. The surfaces of an input that was read are exactly those with a card, so they can be looked up (C314_lookup_partial). The reader itself does not notice: all surface cards can be taken away from an input and it is read with the same cells (C314_surfaces_violated).
* **C315** (Tallies of cells without a card are noticed). Partial. Each tally that is listed keeps the words of its card, so its cells can be looked up (C315_words_partial). The reader itself does not notice: the cells can be replaced by those of any other input and the tallies are read as before (C315_cells_violated).
* **C320** (Numbers of cards have no other characters than digits). Partial. All characters besides digits, signs, white space and underscores are refused with ValueError (C320_cell_partial, C320_surface_partial). An underscore between two digits is left out, as in Python programs: cell 1_0 becomes cell 10 (C320_cell_violated, C320_surface_violated).

### Further observations made while modelling

These are consequences of the model, mostly visible in the definitions, and not all are stated as theorems.

* mcnp_input_reader: a lone "(" in a cell raises IndexError; words after "$" on a cell line are still read as surfaces; "+5" and "#5" are
  ignored; "like" cells raise ValueError; a title line that starts with a digit is read as a cell; "nlib = 70c" with blanks raises
  ValueError; "*f4" tallies are lost; `tal_type` holds the number; "m1$x" raises ValueError; reflecting surfaces "*5 px" and negative
  transforms raise ValueError.
* meshtal_analysis: blank lines inside or after the data of a mesh become rows of NaN; `np.diff` is used with wrong arguments in
  `voxel_average_volume`.
* geom_utils: `dist_between_planes` changes its second argument; the ratio uses the first components only.
* fispact_output_reader: `step_num` is the index plus one and the first marker is skipped; `parse_composition` can slice with a negative end;
  short lines raise IndexError in `read_summary_data`.
* mcnp_output_reader: `find_last_rendevous` finds the last but one; energy-time blocks of several surfaces lose the last line of the last
  block; time lines of at most four characters are ignored; `get_table_dict` may hold the key ""; the average per history needs a number of
  eleven characters; table 60 names only the last importance.
* r2s_cell: cells and tallies of the configuration are ignored; nested paths raise; the folder of the first cell is made before a missing
  files file is noticed.
* mcnp_analysis: the heat map draws the bin that ends at t_j between t_j and t_(j+1).
* fispact_analysis: `plot_nuc_cont` always writes "bq/kg" on the axis.

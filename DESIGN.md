# Formal model of Fm2Prof: design

## Trusted base

* Lean 4.33.0's kernel, and the standard axioms `propext`, `Classical.choice` and `Quot.sound`.
  No other axiom is used; no proof uses `sorry`, `native_decide` or `bv_decide`. `AXIOMS.md` lists the axioms of
  each theorem.
* The reading of the Python source that went into the definitions under `lean/Verif/Model`.
  Each definition cites the file and lines it models and says where it simplifies.
* The specifications under `lean/Verif/Spec`, which restate the English properties without the model.

## Layout

| directory | contents |
|---|---|
| `Verif/Model/*.lean` | one module per area of the code; functions mirror the Python branch by branch |
| `Verif/Spec/*.lean` | small independent specifications used in theorem statements |
| `Verif/Proofs/*.lean` | helper lemmas |
| `Verif/Props/*.lean` | the property theorems, and beside each a concrete case meeting its hypotheses |

## Modelling conventions

* **Numbers.** Python floats become elements of an arbitrary linearly ordered field `K`, or of an arbitrary
  linear order when the code only compares. Theorems of the second kind hold literally for finite
  floats. Rounding errors of float arithmetic are not modelled. Where a result depends on rounding (the
  increasing-order repair) the addition of the step is an abstract function `bump` with `x < bump x`.
* **Missing values.** `NaN` is `none` in `Option K`. Comparisons with a missing value are false, sums skip or
  propagate it exactly as the numpy/pandas call used does.
* **Infinity** (simplifier thresholds) is `⊤` in `WithTop K`.
* **Exceptions** are values: functions that can raise return `Except PyErr α`.
* **Arrays** are lists; in-place updates are functions returning the new list. Data frames are lists of rows.
* **Black boxes** are parameters over which theorems quantify: the Nelder-Mead optimiser, in-polygon tests
  (shapely, meshkernel), distances, parsing of float literals, file system contents, netCDF contents.
* **Not modelled**: see the section "What is not modelled" at the end.

## When the code does not have a property

Then the property is stated in full, a theorem `..._violated` (or a named counterexample) proves the negation with a
concrete witness of the model, and a theorem with suffix `_partial` proves what does hold. The manifest marks the
property `partial`.

## Plan per property

| id | what is modelled | how it is proved |
|---|---|---|
| C01 | `_check_monotonicity` as a fold carrying the last accepted value | induction over the list; spec: index i accepted iff all earlier are smaller |
| C02 | `check_requirements` then `reduce_points` | repair gives `Pairwise (<)`; masking gives a sublist |
| C03 | same, all four repairs | `Pairwise` of pointwise min; lower bounds preserved by each step |
| C04 | `_check_increasing_order` | induction, generalised over the previous value |
| C05 | backward minimum of `_compute_css_above_z0` | induction from the right; optimality by the same induction |
| C06 | `_extend_css_below_z0` | filtered sums are antitone in `dz`; spec lists ten equidistant levels |
| C07 | `build_geometry` end to end | lengths through every stage |
| C08 | `cumulative_trapezoid` | induction; monotonicity of each increment |
| C09 | `_identify_lakes` per cell | invariant of the time recurrence, spec in terms of first rise |
| C10 | `_distinguish_conveyance_from_storage` | unfold decision logic; top-3 spec through permutation and sortedness |
| C11 | `_optimize_sd_storage` with arbitrary optimiser | case analysis |
| C12 | `_get_extra_total_area` over the reals | monotonicity of exp |
| C13 | `calculate_correction` as a sequence of fallible steps | case analysis on the failing step |
| C14-C16 | `VWSimplifier` with arrays, shifting and `skip` | loop invariant relating the shifted arrays to the live points |
| C17-C19 | `_compute_section_widths` and both checks | field arithmetic with floor; C18/C19 are violated, partial versions proved |
| C20 | `_compute_floodplain_base` | case analysis |
| C21 | `_return_volume_error` | sums of squares |
| C22-C23 | friction weighing | means and convex combinations; C23 has code defects, partial |
| C24-C25 | `FrictionTable.interpolate` (numpy.interp), `arange` | piecewise linear bounds; induction over cross-sections |
| C26 | `_write_roughness_fm1d` as structured text | lengths of blocks |
| C27-C29 | `nearest_neighbour`, `get_selection` | arg-min specification; partition by labels |
| C30 | variance split | arg-min over candidates |
| C31-C33 | `polygon_file` with containment as a parameter | fold invariants |
| C34 | cache as a state machine over runs | violated: witness history; partial for unchanged polygons |
| C35-C38 | `data_import` | induction over lines and columns |
| C39-C42 | `ini_file` over the real template | refinement to a case-insensitive map |
| C43-C48 | `export` and the parsers of `utils` as text | round-trip laws over lines |
| C49-C54 | `run` as a state machine over the set of output files | invariants over histories |
| C55-C57 | location generator | telescoping sums |
| C58-C63, C70-C72 | comparison and plotting utilities | list reasoning |
| C64 | logger, formatters and handlers of the process | invariant over all histories of one project; violated for a second run and a second project, partial |
| C65-C67 | centre values, 2D areas and volumes | sums over cells; C67 violated, partial |
| C68-C69 | mask points and files, the library `geojson` as a parameter | list reasoning; C68 violated for NaN, partial |
| C73 | volumes of `build_geometry` | violated (pool correction can exceed the depth), partial when no cell falls below its first depth |
| C74 | `_build_roughness_tables` then `interpolate` | violated when the water falls, partial for rising water |
| C75 | harmonised levels | violated for a single level, partial otherwise |
| C76 | network definition reader as a state machine over lines, with the variables that survive from branch to branch | refinement to blocks; violated for other layouts |
| C77 | end points of a branch | interpolation lemmas; violated for two points |
| C78 | branch rule files | induction over lines |
| C79 | roughness file, written and read by name | round trip; violated for branches with capitals, partial for lower case |
| C80-C83 | SOBEK 3 roughness, rectangular definitions, SOBEK 3 profile rows, test format | rows of the text by splitting lines |
| C84 | loading as a state machine over configuration and disk | case analysis on the failing step; violated for a missing section `output`, partial |
| C85 | printing then loading, input files | round trip; violated for relative paths, partial |
| C86 | output directory set, returned and created | violated for relative paths, partial |
| C87 | runs one after the other on one directory | violated for stale roughness files, partial when all files are written again |
| C88 | 1D-2D mapping by prefix | violated for names with the same first nine characters, partial |
| C89 | days of the moments | arithmetic; violated for short series, partial |
| C90 | data along a route with duplicates dropped | induction; violated for equal series, partial |
| C91 | discharges chosen by thresholds | monotonicity of the first row reaching a level; violated for a station without levels, partial |
| C92 | differences by time, means, highest values | permutations and sorted lists |
| C93 | logger, formatters and handlers of the process | invariant over all histories: one line per message and handler; violated for critical messages, partial |
| C94 | the same | consequence of the invariant; violated by a second project, partial |
| C95 | mark of lakes on import, point file | all points say no; violated |
| C96 | envelopes with the hull as a parameter | induction over the cross-sections; violated for failures other than `IndexError`, partial |
| C97 | the whole run from the imported columns to the files (`Model/Pipeline.lean`) | composition of C52, C43, C02, C03, C14 and C47 |
| C98 | the same | composition of C51, C22, C25 and C26; violated without section polygons, partial |
| C99 | the same | composition of C51 and C44 |
| C100 | assignment of faces and selection of data | the rows of the cross-sections are a permutation of all rows |
| C101 | the whole run | one definition per location, whatever the selection |
| C102 | the whole run | equality of the two runs, function by function |
| C103 | the whole run | the selected columns are equal |
| C104 | one cross-section from the loaded data to the exported quantities, and harmonising the roughness | equality of the two computations, function by function; negation proved for the base level without correction; whole runs: same outcome by comparing the runs cross-section by cross-section, and what both definition files say when read |
| C105 | the same, and whole runs | equality of the two computations, function by function; whole runs: two runs whose cross-sections are equal up to the volumes write the same files but the table of volumes |
| C106 | the same; faces and edges as lists of rows | sums, sorted lists and the largest velocities do not depend on the order; witnesses against the method of mean velocities and against two nearest faces; whole runs: the labels of points do not depend on their order, and two runs whose cross-sections agree write the same files (`run_sim`) |
| C107 | the same | a dry row adds zero to each sum; witness against faces without velocities |
| C108 | the same | distances and speeds are kept by rotations and shifts; whole runs: the nearest cross-section of a point is the same when there is only one |
| C109 | csv tables as texts, the files of a directory, a reading of 1D and 2D results; times by a clock of which only the round trip of its texts is assumed | csv round trip by induction over lines and cells; negation proved for all results at midnight |
| C110 | the same | first reading computed; negation proved for every second reading |
| C111 | the same; a stop leaves a beginning of the list of writes and a beginning of the next text | case by file; negations proved for all line ends in three files |
| C112 | `strptime` by a clock, removing a prefix, stripping | computation; negation proved for all time zones |
| C113 | as C109, with the mapping of stations | computation of both tables; negations proved for all stations with numbers as names and all results at midnight |
| C114 | the paths of a comparison followed by a reading | computation; negations proved for all paths |
| C115 | rating curves as tables, their csv files and the rule that existing files are used | table by columns, csv round trip by induction over the rows; negation proved for every second comparison |
| C116 | opening a comparison | negation proved for all windows; equality when all records lie inside |
| C117 | a session as a list of steps | invariant over the steps; negation proved for all steps that set times |
| C118 | tables of levels, the window and the statistics of a station; the root of the variance is a parameter | each statistic against its definition on the common times |
| C119 | file names with suffixes, a directory | lines split again; negation proved for all names with a suffix |
| C120 | the text of the summary | computation per branch, order by induction |
| C121 | names as texts | membership; witness in small letters |
| C122 | commands on a world of configuration texts, directories and result files | C40 and C42 on the file found by `with_suffix`; negation proved for all names with a dot |
| C123 | `create` | induction over the commands; negation proved for all existing files |
| C124 | `load_configuration` without a file, running the defaults | default input files are empty names; negation proved for all missing files |
| C125 | `run` of the command line | case analysis on the result of the run; negation proved for all failed runs |
| C126 | opening a project | C40; negation proved for all files without a section and all texts with a line before the first section |
| C127 | `check` | case analysis; negation proved for all existing output directories |
| C128 | sequences of commands | induction over the commands with C49 |
| C129 | the whole run | bound on every masked area, on the repairs by induction over the points, and the exported points are a part of these |
| C130 | the whole run | the centre is a nearest face; levels and depths of that face bound the points; the lowest and highest point are kept by the reduction |
| C131 | the whole run | C98, C22 and C24: values read off between bounds stay between them; negation proved for all sections dry at the first map |
| C132 | names and branches in `Model/Figures.lean` | induction over the names; sorted without repetition; after a run by C97; negation for one name without number |
| C133 | the parts of a branch | all names on one branch: computed; negation proved for all files with two branches |
| C134 | `plotCrossSections` | negation proved after every successful run |
| C135 | what is drawn from the files of a run | each of the three plots succeeds by C97, C99 and C98; negation proved for all runs without section polygons |
| C136 | saving a figure, drawing as a parameter | case analysis over file, flag and failures |
| C137 | the volume graph | label by label; negation for the flow volume with correction |
| C138 | the drawing of the profile | widths halved on both sides |
| C139 | the longitudinal figure | C133 and minimum and maximum by induction; negation for several branches and for capitals |
| C140 | `settingsOf` in `Model/Project.lean` | every value read has the type of its template entry, by the invariant of loading |
| C141 | tables of parameters in `Spec/Project.lean` | frame lemma for setting a value, then one case per parameter |
| C142 | the same | negation proved for all configurations and values: three parameters are never read, types are not checked, a text turns a switch on |
| C143 | `projectInputs`, `projectRun` | C31 and C28 lifted through cache, label texts and loading |
| C144 | cache files of a project between two runs | negation proved for all projects, all new polygons and defaults: the second run is the same |
| C145 | `readPolygons` in a run | `PolygonError` becomes false; negation proved for missing files, other extensions and equal names |
| C146 | `polygonsFromFile` | negation proved for all files with distinct names |
| C147 | the export block of a run | sorted names, the first unknown one ends the block; negation proved for all runs |
| C148 | `fitCost`, `fitOptimiser` in `Model/Fit.lean`, the search as `Search` | the cost is a quadratic in the extra volume; clipping at 0 moves between 0 and the best value |
| C149 | the same, `combinedCost` for method 2 | negation proved: for all data and exact searches flow volume equals total volume; for any search only the start value uses 2D flow volumes; method 2 fixes only the sum |
| C150 | `gridLabelsAt`, `inputIsText` in `Model/Project.lean` | negation proved for all projects with readable polygon files; equality without polygon files |
| C151 | `importDflow2d`, `mapFileOf` in `Model/MapFile.lean` | characterisation of a successful import; masks as filters of index lists |
| C152 | the same | import succeeds iff all read variables are there; negation proved: two of them are not used |
| C153 | `Stored`: a number and whether it is the fill value | negation proved for all files: the mark has no influence |
| C154 | `exportGeometryAs`, `exportRoughnessAs` in `Model/Formats.lean` | cases on the name; negations proved for all unknown names and all lists |
| C155 | `timeLines`, `figureLongitudinal` in `Model/Longitudinal.lean` (utils.py:2055-2296) | the first record that is not before a moment is the record at the moment, if both models have one; negations with a witness and for all short windows |
| C156 | `statLines`, `applyStat`, `alignSub` | without equal kilometres and levels the alignment of the two series is the identity; negations for all stations with equal kilometres, and with a witness |
| C157 | `heatMapTime`, `heatMapRating` | the rows kept are those of different differences, the columns kept those with a difference; negations for all windows and all models that agree |
| C158 | `figureKindFile`, `saveKind` | names of branches without dash and underscore can be read back from the name of the file; negations for all routes and stations |
| C159 | `sharesOf`, `figureDischarge` | arithmetic in the field; negations for all records with one discharge |
| C160 | `evalFigures` | induction over the routes and stations; negations for all models without routes and all short windows |
| C161 | `figureStation`, `stationCurves` | by C116–C118 for the series and the statistics; negation for all other words |
| C162 | `figureRating`, `atDischarge` | by C91 for the discharges; every discharge chosen is a label of both tables; negation for all routes that end with two stations at one kilometre |
| C163 | `generateFile`, `writeLocationFile` in `Model/Generator.lean` (utils.py:144-169, 264-277, 394-415) | by C36, C76 and C78; the rows that can be written are a prefix, by induction; negations for all rule files that are missing and all networks with too few ids |
| C164 | `buildGeometry`, `buildCrossSectionGeometry` of `Model/Build.lean` and `Model/Correction.lean`; `ControlVolume.without` in `Spec/Robust.lean` | a map that is not rising is not selected, and erasing a row that is not selected from all series leaves the selection; lakes by induction over the maps; after the highest water by induction on the number of maps; witnesses where a lake is on the edge of rising and for the other way to find the flowing part |
| C165 | the same; `Divided` in `Spec/Robust.lean` | by induction on the division: sums of area times a value that does not depend on the area are equal; the flowing part by the mean of the three largest velocities; witness with the default thresholds; for the definition and volume files of two runs (`FinerAt` in `Props/Refined.lean`) by C99 and the steps after the build |
| C166 | `runWrites` in `Model/Crash.lean`: the files of a run in the order of writing; `AfterInterruptions` in `Spec/Crash.lean`: any number of interrupted runs | the writes give the run (`C166_writes`), so a stopped run only changes files that a whole run replaces; induction on the interruptions; a torn result refuses all later runs without overwriting |
| C167 | the same, with the list of 1068-1077 | case analysis on the writes; witnesses for all runs: the envelopes are not listed, `roughness_test.csv` is listed and never written |
| C168 | `cacheWrites`, `cachesAfterCrash` in `Model/ProjectCrash.lean`; cache files in `Model/Project.lean` may be damaged; `Stopped` in `Spec/ProjectCrash.lean` | reading after a prefix of the cache writes gives the same labels; a damaged cache raises for all later runs |
| C169 | `fromRatio` in `Model/Simplify.lean` | from the facts on the thresholds of C15; a share of less than two points leaves none |
| C170 | `alluvialWidth`, `nonalluvialWidth` in `Model/Sections.lean`: the lookup of keys in the section widths | evaluation of the lookup; the names of the floodplain are not among the keys, so the width is always zero |
| C171 | `Model/Program.lean`: the commands of `Model/Cli.lean` with the computations of `Model/Project.lean` on the files they find, and the cache files from one command to the next. `Spec/Program.lean` lists all settings with their documented defaults | each setting is followed from its line through loading (C40) to the run; C143 and C97 for the profiles |
| C172 | the same; a file that does not exist is left out with a warning (ini_file.py:395-412) | C143 for files that exist; the settings with and without the line are the same when the file is missing |
| C173 | the same, for lists of commands; `Spec/History.lean` says which commands leave a project alone | invariant over the list: maps, polygons, the texts of the project and its cache files are as before or as after its own run; what a run reads depends on these alone; projects that share a map file share its cache files |
| C174 | the program of C171 with runs that are stopped before, during or after reading the input (`Spec/Interruption.lean`: directories made, cache files complete or torn, results complete or torn) | the invariant of C173 holds after each stop, since a complete cache file has the labels that the run would compute again; a torn cache file makes each later run fail, by induction over the repetitions with C168 |
| C175 | the water of `Spec/Horizontal.lean` as input of the modelled `build_geometry` | wet faces and lakes are characterised over horizontal water, all maps are accepted, and the areas and volumes of C06 and C66 are rewritten; faces that are wet by a millimetre or less break the claim |
| C176 | the same; the 1D volume is the trapezoid rule of C08 | by linearity the error is a sum over faces; for one face the widths along the profile are 0 and then 1, so the trapezoid rule is off by half a step at most (induction over the points) |
| C177 | the run of C97 with the water of `Spec/Horizontal.lean`; `OnBedCurve` says when a point lies on the curve of the area below each level | C175 gives the built profile, which does not decrease, so that each repair adds a millimetre per point at most (induction); the reduction keeps points as they are; the file is read back by C97 |
| C178 | `command` with `compare`: opening the project, reading, digitizing, figures | each part only writes files with names of comparisons (`Proofs/CompareFiles.lean`), by cases over the failures |
| C179 | `compareResults` in the output directory; `AreResults`, `OutputOf` and the `Shows...` definitions of `Spec/CompareCommand.lean` | the tables by C111 and C115; the figures by induction over the list of figures, with an invariant for the session, as the first figure along a route sets the period shown (`Proofs/CompareEval.lean`); the exit status by showing that no figure of the list fails, with C162 for the rating curves |
| C180 | the same, in a directory with the files of a first comparison | the stored tables are read back (C110, C115), so that the same figures are drawn over the old ones; negation for all other results, also files that do not exist |
| C181 | `script` over `Call`: `set_parameter`, `set_input_file`, `set_output_directory` and `run` on an open project (`Model/Api.lean`) | induction over the calls with the values last set (`Spec/Api.lean`); runs in between change only results and cache files; two configurations with the same keys and values are equal; negation with polygon files through the caches |
| C182 | `printConfiguration` in a file, `program` with `run` against `call` with `run` | the printed file is a project with the same settings (C40, C141) for absolute paths; the log file changes nothing; negation for a relative output directory |
| C183 | the run (`jobOf`) on input given station by station (`Spec/StationOrder.lean`) | the labels of faces and edges are those of the one nearest station in any order; cross-sections are built one by one, so the list of results is permuted; the common levels are minima and maxima |
| C184 | a run of a project on its files (`projectRun`); containment of points is a parameter | the label of a point is that of any polygon that covers it, so labels and with them the input of the run are equal; loops that stop at the first exception succeed in any order |
| C185 | whole runs on two location files with the same 2D model and polygons | the labels of faces and edges agree on whether they are that of the cross-section, so its data are the same (C103) |
| C186 | whole runs on a map file and on the same file with maps left out | the series without a map are those of C164; the definition depends on the profile, the sections and the faces but not on the roughness tables |
| C187 | two runs with configurations that differ in one group of settings | the steps that use the setting come after those that do not, and each exporter uses part of a cross-section: blocks of steps that do the same to a file are a relation that is kept by every write fault |
| C188 | two texts related by adding comments and blank lines and by reordering | the parser ends in states that differ in blank lines at the ends of values only (simulation, line by line), whose texts are the same; reading depends on the sections that are there and the text for each key; commands depend on the files through opening only |
| C189 | a run as a sequence of steps on common files: looking for results, looking at and writing cache files, opening and writing result files piece by piece; any number of runs take turns in any order | each run looks only at places of its own or at places that nobody changes; induction on the order of turns shows that it does what it does on its own; the steps on their own lead to the run of the project. Violated for one output directory (both runs see no results, texts get mixed) and for one cache file that has to be made |
| C190 | the whole program on two states of the files, of which one has in directory q what the other has in directory p | the settings differ in the directory of their paths only, and so do the names of cache files; what is read is the same, and what is written is the same in both directories; induction on the commands. Violated outside the directory: loading makes the output directory in the current directory too |
| C191 | whole runs with a location file and with the renamed one | the nearest cross-section is chosen by its place, so a label is the new name of the old label; the same faces and edges are selected, and the same profile is built; the two runs simulate each other. Violated when a region without cross-sections is called like a cross-section: its faces count for that cross-section |
| C192 | the reader as a state machine over its setters, its loading methods and its table properties (Model/ReaderObject.lean) | induction over the script for files and settings, whose last value counts; reading all data replaces all four tables by those of C111, so nothing of the past is left. Violated four ways: the first table shown fixes the times for later results; after a failed reading the old tables are shown; asking for the mapping too early leaves a mapping without stations; with tables in the directory, a new path or offset has no effect |
| C193 | the run on two maps that differ in the roughness of edges and faces (Spec/RoughnessOnly.lean) | simulation of the two runs (RunSim): what is kept of a cross-section has no contents of roughness tables; names of tables are kept by harmonising; multiplying commutes with means, interpolation and harmonising. Without polygons of the sections it does not hold (C193_needs_polygons): the roughness of the faces then decides the sections and the widths in the definition file |
| C194 | the run with ExportCSSData; files `id.pickle` and `id_flowmask.pickle` (Spec/Stored.lean); what pickle makes of the data is a parameter | the ordered writes of a run (C166) restricted to the stored files; each file is written with one text only; a profile is built only if its mask was. Violated when a location is called like the flow mask of another one: they share a file |
| C195 | two runs, on a map and on the map with other velocities, with configurations that differ in the conveyance settings (Spec/Conveyance.lean) | what is built without the flow part is a function of the cells without their velocities; it passes through repair, reduction and correction; files compared block by block as in C187 |
| C196 | two runs on one map, with configurations that differ in the velocity thresholds (Spec/Stricter.lean) | the mask is smaller, so are the areas; extrapolation, removal of zero widths, repair and cap compared point by point. The repair adds a step to repeated widths, so that the widths compare up to one step for each level only; an example shows that a stricter threshold can give a larger width |
| C197 | `build_geometry`, run; `RoomierAt` in `Spec/Roomier.lean` | by induction on the sublist of faces: each sum of areas grows; the levels are those of the nearest face; the 1D volumes by C08; the files by C99 |
| C198 | label faces, `getSelection`, definition file | the ids by C97; the sums by exchanging the order of summation over lines and faces; the violation from C27 |
| C199 | `build_geometry`, run; `Selects`, `keepMaps` in `Spec/FewerMaps.lean` | with a rising level no map is dropped and without lakes each row depends on its own map only, so rows commute with selecting maps; the files by C99 |
| C200 | region classification of faces and locations, label faces | C143 for faces and locations; the last polygon wins for faces, the first for locations; `_violated` for overlaps in either order |
| C201 | `FaceData`, `setModelData`, `run`; `SameSpeeds` in `Spec/Direction.lean` | velocities enter through the speed only; equal loaded models up to velocities with equal speeds (C195's lemmas) |
| C202 | `check_requirements`, run; `RaisedTo` in `Spec/Wider.lean` | two runs of the repair loop in lockstep: either the widths are equal from there on up to the next narrow one, or the larger is at most the minimum plus one step per point; the file by C99 |
| C203 | `build_geometry`, `check_requirements`, volume file; `trapezoidArea` in `Spec/Geometry.lean` | `_violated` for every run: the tenth and eleventh point are built at one level and moved apart afterwards; `_partial` bound by summation over the rows, with the distance between repaired and built levels and widths from C04 |
| C204 | `fromThreshold`, `fromNumber`, `buildThresholds` | the thresholds by C16 (infinite at the ends, increasing along the elimination), masks by induction over the line; a number of points by the smallest threshold above the one at that position |
| C205 | `build_geometry` with both values of the setting; `RunConfig.withExtrapolation` in `Spec/Extrapolate.lean` | both profiles from one decomposition of `build_geometry`; volumes by C99; widths through the repairs as in C196 |
| C206 | `_identify_lakes` and `build_geometry` with two values of `LakeTimesteps`; `NoFall` in `Spec/Lakes.lean` | a lake at the later map is one at the earlier map; by induction over the maps a face that rests with the later map rests with the earlier one; areas as sums, 1D volumes by C08, files by C99 |
| C207 | the runs on two map files that differ in the Chezy coefficients; `NowhereRougher` in `Spec/Smoother.lean` | means over the wet edges keep the order; the levels are the same because the geometry is (C193); `np.interp` keeps the order because the interval found has the level in it; files by C98; `C207_needs_dry` is a run that shows why the same edges are to be dry |
| C208 | `_compute_floodplain_base` in the runs with two margins; `LowerBase` in `Spec/FloodplainBase.lean` | the geometry and the section widths do not use the margin; the base level is a minimum of which one part shifts with it; files by C43 |

## What of the code is modelled

Every definition under `lean/Verif/Model` cites the lines it models. Turned around, these are the functions of the code with the
modules that model them. A function is listed when lines of it are cited; the comment at the definition says what is simplified.

### `fm2prof/cli.py`

| function | lines | modules |
|---|---|---|
| `cli_create_new_project` | 23-31 | `Cli`, `Program` |
| `cli_check_project` | 35-39 | `Cli`, `Program`, `Stats` |
| `cli_compare_1d2d` | 43-57 | `Cli`, `Program`, `Stats` |
| `cli_load_project` | 61-89 | `Cli`, `Program`, `Stats` |

### `fm2prof/common.py`

| function | lines | modules |
|---|---|---|
| `ElapsedFormatter.__init__` | 53-71 | `Log` |
| `ElapsedFormatter.pbar` | 74-76 | `Log` |
| `ElapsedFormatter.pbar` | 79-84 | `Log` |
| `ElapsedFormatter.format` | 86-94 | `Log` |
| `ElapsedFormatter.__format_intro` | 96-97 | `Log` |
| `ElapsedFormatter.__format_header` | 99-103 | `Log` |
| `ElapsedFormatter.__format_footer` | 105-108 | `Log` |
| `ElapsedFormatter.__format_message` | 110-124 | `Log` |
| `ElapsedFormatter.__reset` | 126-127 | `Log` |
| `ElapsedFormatter.start_new_iteration` | 129-133 | `Log` |
| `ElapsedFormatter.new_task` | 135-138 | `Log` |
| `ElapsedFormatter.finish_task` | 140-142 | `Log` |
| `ElapsedFormatter.set_number_of_iterations` | 144-149 | `Log` |
| `ElapsedFormatter.set_intro` | 151-153 | `Log` |
| `ElapsedFormatter.get_elapsed_time` | 155-159 | `Log` |
| `ElapsedFileFormatter.__init__` | 165-175 | `Log` |
| `FM2ProfBase.create_logger` | 207-224 | `Log` |
| `FM2ProfBase.set_logger_message` | 243-282 | `Log` |
| `FM2ProfBase.start_new_log_task` | 284-295 | `Log` |
| `FM2ProfBase.finish_log_task` | 297-304 | `Log` |
| `FM2ProfBase.set_logfile` | 314-330 | `Log` |
| `FrictionTable.__init__` | 352-356 | `Roughness` |
| `FrictionTable.interpolate` | 358-365 | `Roughness` |
| `FrictionTable._validate_input` | 368-377 | `Roughness` |

### `fm2prof/cross_section.py`

| function | lines | modules |
|---|---|---|
| `CrossSectionHelpers.interpolate_friction_across_cross_sections` | 48-80 | `Roughness` |
| `CrossSectionHelpers._interpolate_friction_across_cross_sections` | 82-120 | `Roughness` |
| `CrossSection.__init__` | 136-224 | `Correction`, `Export`, `Geometry`, `Pipeline`, `Sections` |
| `CrossSection.alluvial_width` | 227-232 | `Sections` |
| `CrossSection.nonalluvial_width` | 235-240 | `Sections` |
| `CrossSection.get_point_list` | 252-259 | `Mask` |
| `CrossSection.build_geometry` | 262-416 | `Build`, `Correction`, `Crash`, `Geometry`, `Pipeline`, `Runner` |
| `CrossSection.check_requirements` | 418-431 | `Correction`, `Geometry` |
| `CrossSection.calculate_correction` | 433-558 | `Correction` |
| `CrossSection.assign_roughness` | 560-575 | `Pipeline` |
| `CrossSection.reduce_points` | 586-646 | `Simplify` |
| `CrossSection.set_face_output_list` | 648-697 | `Mask` |
| `CrossSection.set_edge_output_list` | 699-741 | `Mask` |
| `CrossSection._check_remove_duplicate_zeroes` | 743-746 | `Geometry` |
| `CrossSection._check_remove_zero_widths` | 752-759 | `Geometry` |
| `CrossSection._combined_optimisation_func` | 761-781 | `Fit` |
| `CrossSection._optimisation_func` | 783-810 | `Fit` |
| `CrossSection._optimize_sd_storage` | 812-908 | `Correction`, `Fit` |
| `CrossSection._check_increasing_order` | 910-914 | `Geometry` |
| `CrossSection._build_roughness_tables` | 916-941 | `Roughness` |
| `CrossSection._friction_weighing_simple` | 943-949 | `Roughness` |
| `CrossSection._friction_weighing_area` | 951-974 | `Pipeline`, `Roughness` |
| `CrossSection._compute_section_widths` | 976-1005 | `Sections` |
| `CrossSection._compute_floodplain_base` | 1007-1042 | `Sections` |
| `CrossSection._identify_lakes` | 1044-1125 | `Build` |
| `CrossSection._compute_css_above_z0` | 1127-1161 | `Geometry` |
| `CrossSection._distinguish_conveyance_from_storage` | 1163-1279 | `Build` |
| `CrossSection._extend_css_below_z0` | 1281-1360 | `Build` |
| `CrossSection._get_extra_total_area` | 1362-1378 | `Correction` |
| `CrossSection._return_volume_error` | 1388-1401 | `Correction` |
| `CrossSection._check_monotonicity` | 1404-1435 | `Geometry` |
| `CrossSection._check_total_width_greater_than_flow_width` | 1437-1444 | `Geometry` |
| `CrossSection._check_section_widths_greater_than_flow_width` | 1446-1457 | `Sections` |
| `CrossSection._check_section_widths_greater_than_minimum_width` | 1459-1481 | `Sections` |

### `fm2prof/data_import.py`

| function | lines | modules |
|---|---|---|
| `FMDataImporter.__init__` | 21-25 | `MapFile` |
| `FMDataImporter.file_path` | 28-30 | `MapFile` |
| `FMDataImporter.file_path` | 33-39 | `MapFile` |
| `FMDataImporter.dflow2d_face_keys` | 42-49 | `MapFile` |
| `FMDataImporter.dflow2d_edge_keys` | 52-59 | `MapFile` |
| `FMDataImporter.dflow2d_result_keys` | 62-72 | `MapFile` |
| `FMDataImporter.get_variable` | 74-77 | `MapFile` |
| `FMDataImporter.import_dflow2d` | 79-170 | `Classify`, `MapFile`, `Mask`, `Pipeline` |
| `FmModelData.get_ordered_css_list` | 207-232 | `Classify` |
| `FmModelData.get_selection` | 234-287 | `Cell`, `Classify`, `Pipeline` |
| `ImportInputFiles.css_file` | 293-327 | `Locations`, `Project` |

### `fm2prof/export.py`

| function | lines | modules |
|---|---|---|
| `OutputFiles.__getitem__` | 36-38 | `Runner` |
| `OutputFiles.__iter__` | 40-42 | `Runner` |
| `Export1DModelData.export_geometry` | 51-76 | `Formats` |
| `Export1DModelData.export_roughness` | 78-104 | `Formats` |
| `Export1DModelData.export_volumes` | 106-146 | `Export`, `Pipeline` |
| `Export1DModelData.export_cross_section_locations` | 148-173 | `Export` |
| `Export1DModelData._write_geometry_testformat` | 177-189 | `Export`, `Pipeline` |
| `Export1DModelData._write_roughness_testformat` | 191-216 | `Formats` |
| `Export1DModelData._write_geometry_fm1d` | 220-258 | `Export` |
| `Export1DModelData._write_roughness_fm1d` | 260-284 | `Export` |
| `Export1DModelData._get_fm1d_definition_sec` | 286-306 | `Export` |
| `Export1DModelData._get_fm1d_branch_sec` | 308-332 | `Export` |
| `Export1DModelData._write_geometry_sobek3` | 336-430 | `Export` |
| `Export1DModelData._write_roughness_sobek3` | 432-486 | `Export`, `Pipeline` |

### `fm2prof/fm2prof_runner.py`

| function | lines | modules |
|---|---|---|
| `Fm2ProfRunner.__init__` | 79-119 | `Api`, `Cli`, `Log` |
| `Fm2ProfRunner.run` | 121-153 | `Api`, `Cli`, `Crash`, `Parallel`, `Program`, `Project`, `Runner` |
| `Fm2ProfRunner.load_configuration` | 155-170 | `Cli` |
| `Fm2ProfRunner._run_inifile` | 187-215 | `Crash`, `Parallel`, `Pipeline`, `Program`, `Runner` |
| `Fm2ProfRunner._initialise_fm2prof` | 217-277 | `Cli`, `Program`, `Project`, `Runner` |
| `Fm2ProfRunner._validate_config_after_initalization` | 279-321 | `Runner` |
| `Fm2ProfRunner._finalise_fm2prof` | 323-350 | `Crash`, `Pipeline`, `Runner` |
| `Fm2ProfRunner._export_envelope` | 352-378 | `Crash`, `Mask`, `Runner` |
| `Fm2ProfRunner._set_fm_model_data` | 380-481 | `Parallel`, `Pipeline`, `Program`, `Project`, `ProjectCrash`, `Runner`, `Sections` |
| `Fm2ProfRunner._classify_roughness_sections_by_variance` | 484-532 | `Classify`, `Pipeline`, `Sections` |
| `Fm2ProfRunner._generate_geojson_output` | 534-563 | `Mask`, `Pipeline`, `Runner` |
| `Fm2ProfRunner._generate_cross_section_list` | 565-600 | `Crash`, `Runner` |
| `Fm2ProfRunner._get_css_range` | 602-609 | `Project`, `Runner` |
| `Fm2ProfRunner._generate_cross_section` | 611-674 | `Pipeline`, `Runner` |
| `Fm2ProfRunner._build_cross_section_geometry` | 676-709 | `Correction` |
| `Fm2ProfRunner._create_new_cross_section` | 723-762 | `Crash`, `Pipeline`, `Runner` |
| `Fm2ProfRunner._write_output` | 765-883 | `Crash`, `Program`, `Runner` |
| `Fm2ProfRunner._reduce_css_points` | 885-913 | `Correction` |
| `Fm2ProfRunner._perform_2D_volume_correction` | 931-956 | `Correction` |
| `Fm2ProfRunner._print_log_report` | 958-961 | `Log` |
| `Fm2ProfRunner._output_exists` | 963-973 | `Parallel`, `Runner` |
| `Project.set_parameter` | 985-996 | `Api` |
| `Project.get_parameter` | 998-1010 | `Api` |
| `Project.set_input_file` | 1012-1022 | `Api` |
| `Project.get_input_file` | 1024-1032 | `Api` |
| `Project.set_output_directory` | 1034-1046 | `Api` |
| `Project.get_output_directory` | 1048-1050 | `Api` |
| `Project.print_configuration` | 1052-1065 | `Api` |
| `Project.output_files` | 1068-1077 | `Api`, `Runner` |

### `fm2prof/ini_file.py`

| function | lines | modules |
|---|---|---|
| `ImportBoolType.__new__` | 27-28 | `IniFile` |
| `ImportListType.__new__` | 34-35 | `IniFile` |
| `IniFile.has_output_directory` | 119-141 | `IniFile` |
| `IniFile.get_output_directory` | 143-152 | `IniFile` |
| `IniFile.set_output_directory` | 154-165 | `IniFile` |
| `IniFile.get_input_file` | 191-200 | `IniFile`, `Program`, `Project` |
| `IniFile.get_parameter` | 202-220 | `IniFile`, `Project` |
| `IniFile.set_input_file` | 222-224 | `IniFile`, `Project` |
| `IniFile.print_configuration` | 226-236 | `IniFile` |
| `IniFile.load_configuration_from_file` | 238-252 | `IniFile` |
| `IniFile.set_parameter` | 254-256 | `IniFile` |
| `IniFile._set_config_value` | 258-273 | `IniFile` |
| `IniFile._get_key_from_case_insensitive_input` | 293-298 | `IniFile` |
| `IniFile._get_from_configuration` | 300-309 | `IniFile` |
| `IniFile._get_template_ini` | 311-315 | `IniFile` |
| `IniFile._read_inifile` | 317-338 | `IniFile` |
| `IniFile._extract_parameters` | 340-379 | `IniFile` |
| `IniFile._extract_input_files` | 381-412 | `IniFile`, `Project` |
| `IniFile._extract_output_dir` | 424-443 | `IniFile` |
| `IniFile._get_valid_output_dir` | 445-458 | `IniFile` |
| `IniFile._get_inifile_params` | 468-496 | `IniFile` |

### `fm2prof/lib/polysimplify.py`

| function | lines | modules |
|---|---|---|
| `triangle_area` | 41-48 | `Simplify` |
| `triangle_areas_from_array` | 51-83 | `Simplify` |
| `remove` | 89-97 | `Simplify` |
| `VWSimplifier.__init__` | 101-107 | `Simplify` |
| `VWSimplifier.build_thresholds` | 109-195 | `Simplify` |
| `VWSimplifier.from_threshold` | 197-198 | `Simplify` |
| `VWSimplifier.from_number` | 200-206 | `Simplify` |
| `VWSimplifier.from_number_index` | 208-214 | `Simplify` |
| `VWSimplifier.from_ratio` | 216-220 | `Simplify` |

### `fm2prof/mask_output_file.py`

| function | lines | modules |
|---|---|---|
| `create_mask_point` | 32-47 | `Mask` |
| `validate_extension` | 50-62 | `Mask` |
| `read_mask_output_file` | 65-83 | `Mask` |
| `write_mask_output_file` | 86-104 | `Mask`, `Pipeline` |

### `fm2prof/nearest_neighbour.py`

| function | lines | modules |
|---|---|---|
| `classify_with_regions` | 15-55 | `Classify` |
| `classify_without_regions` | 57-74 | `Classify` |
| `get_centre_values` | 76-99 | `Build`, `Pipeline` |
| `_get_class_tree` | 101-113 | `Classify` |

### `fm2prof/polygon_file.py`

| function | lines | modules |
|---|---|---|
| `Polygon.__init__` | 72-80 | `Polygons` |
| `Polygon.x` | 83-85 | `Polygons` |
| `Polygon.y` | 88-90 | `Polygons` |
| `MultiPolygon.polygons` | 129-142 | `Polygons` |
| `MultiPolygon.get_gridpoints_in_polygon` | 174-223 | `Parallel`, `Polygons`, `Project`, `ProjectCrash` |
| `MultiPolygon.get_points_in_polygon` | 225-251 | `Polygons` |
| `MultiPolygon._load_cache` | 254-257 | `Project` |
| `MultiPolygon._write_cache` | 260-270 | `Parallel`, `Project` |
| `MultiPolygon.meshkernel_inpolygon` | 272-330 | `MapFile`, `Polygons`, `Project` |
| `MultiPolygon.check_overlap` | 332-343 | `Polygons` |
| `MultiPolygon.from_file` | 345-368 | `Polygons`, `Project` |
| `MultiPolygon._polygons_from_geojson_data` | 370-397 | `Polygons`, `Project` |
| `MultiPolygon._validate_extension` | 400-405 | `Project` |
| `SectionPolygon.from_file` | 500-508 | `Polygons`, `Project` |
| `SectionPolygon._validate_sections` | 534-573 | `Polygons` |

### `fm2prof/utils.py`

| function | lines | modules |
|---|---|---|
| `GenerateCrossSectionLocationFile.__init__` | 144-169 | `Generator` |
| `GenerateCrossSectionLocationFile._parse_network_definition_file` | 171-262 | `Locations` |
| `GenerateCrossSectionLocationFile._network_definition_file_to_input` | 264-277 | `Generator`, `Locations` |
| `GenerateCrossSectionLocationFile._apply_branch_exceptions` | 279-324 | `Locations` |
| `GenerateCrossSectionLocationFile._apply_branch_rules` | 326-375 | `Locations` |
| `GenerateCrossSectionLocationFile._parse_branch_rule_file` | 377-392 | `Locations` |
| `GenerateCrossSectionLocationFile._write_cross_section_location_file` | 394-415 | `Generator`, `Locations` |
| `VisualiseOutput.branches` | 449-454 | `Figures` |
| `VisualiseOutput.figure_roughness_longitudinal` | 473-505 | `Figures` |
| `VisualiseOutput.get_cross_sections_for_branch` | 507-533 | `Figures` |
| `VisualiseOutput.split_css` | 536-540 | `Visualise` |
| `VisualiseOutput.get_css_for_branch` | 543-545 | `Figures` |
| `VisualiseOutput.get_roughness_info_for_css` | 547-563 | `Figures`, `Visualise` |
| `VisualiseOutput.get_volume_info_for_css` | 565-591 | `Visualise` |
| `VisualiseOutput.get_cross_section_by_id` | 593-604 | `Visualise` |
| `VisualiseOutput.figure_cross_section` | 606-664 | `Figures` |
| `VisualiseOutput.plot_cross_sections` | 666-678 | `Figures` |
| `VisualiseOutput._get_value_from_line` | 703-704 | `Visualise` |
| `VisualiseOutput.parse_cross_section_definition_file` | 710-749 | `Visualise` |
| `VisualiseOutput._plot_geometry` | 759-830 | `Figures` |
| `VisualiseOutput._plot_volume` | 832-895 | `Figures` |
| `VisualiseOutput._plot_roughness` | 897-923 | `Figures` |
| `VisualiseOutput._get_sd_plot_info` | 926-942 | `Visualise` |
| `VisualiseOutput._get_lowest_water_level_in_2d` | 944-947 | `Visualise` |
| `VisualiseOutput._parse_cssname` | 949-954 | `Visualise` |
| `ModelOutputReader.__init__` | 1191-1215 | `ReaderObject` |
| `ModelOutputReader.start_time` | 1223-1225 | `ReaderObject` |
| `ModelOutputReader.stop_time` | 1233-1235 | `ReaderObject` |
| `ModelOutputReader.path_flow1d` | 1243-1249 | `ReaderObject` |
| `ModelOutputReader.path_flow2d` | 1257-1263 | `ReaderObject` |
| `ModelOutputReader.load_flow1d_data` | 1265-1292 | `Reader`, `ReaderObject` |
| `ModelOutputReader.load_flow2d_data` | 1294-1334 | `Reader`, `ReaderObject` |
| `ModelOutputReader.get_1d2d_map` | 1336-1344 | `Reader`, `ReaderObject` |
| `ModelOutputReader.read_all_data` | 1346-1350 | `Reader`, `ReaderObject` |
| `ModelOutputReader.output_path` | 1362-1368 | `ReaderObject` |
| `ModelOutputReader.file_1d_q` | 1371-1373 | `Reader` |
| `ModelOutputReader.file_1d_h` | 1376-1378 | `Reader` |
| `ModelOutputReader.file_2d_q` | 1381-1383 | `Reader` |
| `ModelOutputReader.file_2d_h` | 1386-1388 | `Reader` |
| `ModelOutputReader.file_1d2d_map` | 1391-1393 | `Reader` |
| `ModelOutputReader.data_1d_h` | 1396-1398 | `Compare`, `Reader`, `ReaderObject` |
| `ModelOutputReader.data_2d_h` | 1401-1403 | `Compare`, `Reader`, `ReaderObject` |
| `ModelOutputReader.data_1d_q` | 1406-1408 | `Compare`, `Reader`, `ReaderObject` |
| `ModelOutputReader.data_2d_q` | 1411-1413 | `Compare`, `Reader`, `ReaderObject` |
| `ModelOutputReader._apply_startstop_time` | 1424-1459 | `Compare`, `ReaderObject` |
| `ModelOutputReader._parse_names` | 1462-1464 | `Compare` |
| `ModelOutputReader._import_2d_observations` | 1466-1492 | `Compare`, `Reader` |
| `ModelOutputReader._import_1d_observations` | 1494-1515 | `Reader` |
| `ModelOutputReader._parse_time` | 1517-1528 | `Reader`, `ReaderObject` |
| `ModelOutputReader._parse_1d_stations` | 1530-1532 | `ReaderObject` |
| `ModelOutputReader._get_1d2d_map` | 1534-1553 | `Compare`, `Reader`, `ReaderObject` |
| `Compare1D2D.__init__` | 1592-1655 | `Cli`, `Reader`, `Stats` |
| `Compare1D2D.eval` | 1657-1668 | `Cli`, `Longitudinal`, `Reader`, `Stats` |
| `Compare1D2D.routes` | 1676-1680 | `Cli` |
| `Compare1D2D.file_1d_h_digitized` | 1683-1685 | `Stats` |
| `Compare1D2D.file_2d_h_digitized` | 1688-1690 | `Stats` |
| `Compare1D2D.digitize_data` | 1697-1713 | `Stats` |
| `Compare1D2D._digitize_data` | 1720-1732 | `Compare`, `Stats` |
| `Compare1D2D._names_to_rkms` | 1734-1735 | `Compare` |
| `Compare1D2D._names_to_branches` | 1737-1738 | `Compare` |
| `Compare1D2D.get_route` | 1740-1766 | `Compare` |
| `Compare1D2D.statistics_to_file` | 1768-1802 | `Stats` |
| `Compare1D2D.figure_at_station` | 1804-1891 | `Longitudinal` |
| `Compare1D2D._compute_statistics` | 1900-1938 | `Compare`, `Stats` |
| `Compare1D2D._get_statistics` | 1940-1943 | `Stats` |
| `Compare1D2D.figure_compare_discharge_at_stations` | 1945-2056 | `Longitudinal`, `Stats` |
| `Compare1D2D.get_data_along_route_for_time` | 2058-2074 | `Compare`, `Longitudinal` |
| `Compare1D2D.get_data_along_route` | 2076-2095 | `Compare` |
| `Compare1D2D._get_nearest_time` | 2102-2107 | `Compare` |
| `Compare1D2D._time_func` | 2109-2133 | `Compare`, `Longitudinal` |
| `Compare1D2D._apply_stat` | 2136-2154 | `Compare`, `Longitudinal`, `Stats` |
| `Compare1D2D._stat_func` | 2156-2161 | `Longitudinal` |
| `Compare1D2D._lmw_func` | 2163-2180 | `Compare` |
| `Compare1D2D.figure_longitudinal` | 2192-2296 | `Longitudinal` |
| `Compare1D2D.figure_longitudinal_rating_curve` | 2298-2371 | `Longitudinal` |
| `Compare1D2D._iter_discharge_steps` | 2373-2387 | `Compare` |
| `Compare1D2D.heatmap_time` | 2389-2431 | `Longitudinal` |
| `Compare1D2D.heatmap_rating_curve` | 2433-2476 | `Longitudinal` |

## What is not modelled

* **Rounding of floats.** Arithmetic is exact in an ordered field; printing and parsing of numbers is modelled with the printed precision.
* **Libraries.** What `numpy`, `pandas`, `scipy`, `shapely`, `meshkernel`, `netCDF4`, `geojson` and `matplotlib` do inside a call is a
  parameter, or is written out as the documented result of the call. The optimiser is any function; containment in a polygon any relation.
* **Aliasing.** An update in place of an array is an update of the attribute that holds it.
* **Other programs.** Files change only through the program, as a stop from outside leaves them (C166, C168, C111), or through other runs at
  the same time (C189). While runs go on, nothing changes their input files.
* **Looks.** Colours, fonts and sizes of figures; which curves are drawn and where figures are saved is modelled.

Functions of which no line is cited:

| function | lines | why |
|---|---|---|
| `cli.py` `_display_version` | 16-19 | reads or sets one field, or calls one function that is modelled |
| `cli.py` `cli` | 93-104 | reads or sets one field, or calls one function that is modelled |
| `common.py` `TqdmLoggingHandler.__init__` | 29-31 | text on the screen |
| `common.py` `TqdmLoggingHandler.emit` | 33-45 | text on the screen |
| `common.py` `FM2ProfBase.__init__` | 192-204 | stores its arguments; the fields are those of the structures in the model |
| `common.py` `FM2ProfBase.get_logger` | 226-228 | text on the screen |
| `common.py` `FM2ProfBase.set_logger` | 230-241 | text on the screen |
| `common.py` `FM2ProfBase.get_logformatter` | 306-308 | text on the screen |
| `common.py` `FM2ProfBase.get_filelogformatter` | 310-312 | text on the screen |
| `common.py` `FM2ProfBase.set_inifile` | 332-342 | reads or sets one field, or calls one function that is modelled |
| `common.py` `FM2ProfBase.get_inifile` | 344-346 | reads or sets one field, or calls one function that is modelled |
| `cross_section.py` `CrossSectionHelpers.__init__` | 40-46 | stores its arguments; the fields are those of the structures in the model |
| `cross_section.py` `CrossSection.face_points_list` | 243-245 | not called in the package, or only by a caller that is modelled with it written out |
| `cross_section.py` `CrossSection.edge_points_list` | 248-250 | not called in the package, or only by a caller that is modelled with it written out |
| `cross_section.py` `CrossSection.get_number_of_faces` | 578-580 | not called in the package, or only by a caller that is modelled with it written out |
| `cross_section.py` `CrossSection.get_number_of_vertices` | 582-584 | not called in the package, or only by a caller that is modelled with it written out |
| `cross_section.py` `CrossSection._return_first_item_and_after_index` | 749-750 | not called in the package, or only by a caller that is modelled with it written out |
| `cross_section.py` `CrossSection._append_to_start` | 1380-1386 | not called in the package, or only by a caller that is modelled with it written out |
| `cross_section.py` `CrossSection.get_parameter` | 1483-1485 | reads or sets one field, or calls one function that is modelled |
| `data_import.py` `FmModelData.__init__` | 182-204 | stores its arguments; the fields are those of the structures in the model |
| `fm2prof_runner.py` `Fm2ProfRunner._print_header` | 172-185 | text on the screen |
| `fm2prof_runner.py` `Fm2ProfRunner._build_cross_section_roughness` | 711-721 | reads or sets one field, or calls one function that is modelled |
| `fm2prof_runner.py` `Fm2ProfRunner._get_time_stamp_seconds` | 915-929 | reads or sets one field, or calls one function that is modelled |
| `ini_file.py` `IniFile.__init__` | 75-110 | stores its arguments; the fields are those of the structures in the model |
| `ini_file.py` `IniFile._file_dir` | 113-116 | reads or sets one field, or calls one function that is modelled |
| `ini_file.py` `IniFile.get_ini_root` | 167-178 | not called in the package, or only by a caller that is modelled with it written out |
| `ini_file.py` `IniFile.get_relative_path` | 180-189 | not called in the package, or only by a caller that is modelled with it written out |
| `ini_file.py` `IniFile._set_output_directory_no_validation` | 275-281 | reads or sets one field, or calls one function that is modelled |
| `ini_file.py` `IniFile.iter_parameters` | 283-291 | not called in the package, or only by a caller that is modelled with it written out |
| `ini_file.py` `IniFile._get_key_from_template` | 414-422 | reads or sets one field, or calls one function that is modelled |
| `ini_file.py` `IniFile._output_dir` | 461-465 | reads or sets one field, or calls one function that is modelled |
| `polygon_file.py` `PolygonError.__init__` | 50-53 | stores its arguments; the fields are those of the structures in the model |
| `polygon_file.py` `MultiPolygon.__init__` | 117-121 | stores its arguments; the fields are those of the structures in the model |
| `polygon_file.py` `MultiPolygon.polygons` | 124-126 | reads or sets one field, or calls one function that is modelled |
| `polygon_file.py` `MultiPolygon.as_meshkernel` | 144-160 | reads or sets one field, or calls one function that is modelled |
| `polygon_file.py` `MultiPolygon.as_shapely` | 162-172 | reads or sets one field, or calls one function that is modelled |
| `polygon_file.py` `RegionPolygon.__init__` | 411-427 | stores its arguments; the fields are those of the structures in the model |
| `polygon_file.py` `RegionPolygon.regions` | 430-432 | reads or sets one field, or calls one function that is modelled |
| `polygon_file.py` `RegionPolygon.from_file` | 434-442 | reads or sets one field, or calls one function that is modelled |
| `polygon_file.py` `RegionPolygon.get_gridpoints_in_polygon` | 444-466 | reads or sets one field, or calls one function that is modelled |
| `polygon_file.py` `RegionPolygon._validate_regions` | 468-476 | reads or sets one field, or calls one function that is modelled |
| `polygon_file.py` `SectionPolygon.__init__` | 482-493 | stores its arguments; the fields are those of the structures in the model |
| `polygon_file.py` `SectionPolygon.sections` | 496-498 | reads or sets one field, or calls one function that is modelled |
| `polygon_file.py` `SectionPolygon.get_gridpoints_in_polygon` | 510-532 | reads or sets one field, or calls one function that is modelled |
| `utils.py` `VisualiseOutput.__init__` | 426-446 | stores its arguments; the fields are those of the structures in the model |
| `utils.py` `VisualiseOutput.number_of_cross_sections` | 457-459 | reads or sets one field, or calls one function that is modelled |
| `utils.py` `VisualiseOutput.cross_sections` | 462-471 | reads or sets one field, or calls one function that is modelled |
| `utils.py` `VisualiseOutput._generate_output_dir` | 680-692 | reads or sets one field, or calls one function that is modelled |
| `utils.py` `VisualiseOutput._set_files` | 694-700 | reads or sets one field, or calls one function that is modelled |
| `utils.py` `VisualiseOutput._read_css_def_file` | 706-707 | reads or sets one field, or calls one function that is modelled |
| `utils.py` `VisualiseOutput._set_plot_style` | 751-757 | styling of figures: no effect on data or files |
| `utils.py` `PlotStyles.set_locale` | 966-973 | styling of figures: no effect on data or files |
| `utils.py` `PlotStyles._is_timeaxis` | 976-987 | styling of figures: no effect on data or files |
| `utils.py` `PlotStyles.van_veen` | 990-1010 | styling of figures: no effect on data or files |
| `utils.py` `PlotStyles.apply` | 1013-1066 | styling of figures: no effect on data or files |
| `utils.py` `PlotStyles._initiate` | 1069-1085 | styling of figures: no effect on data or files |
| `utils.py` `PlotStyles._style_figure` | 1088-1147 | styling of figures: no effect on data or files |
| `utils.py` `ModelOutputReader.start_time` | 1218-1220 | reads or sets one field, or calls one function that is modelled |
| `utils.py` `ModelOutputReader.stop_time` | 1228-1230 | reads or sets one field, or calls one function that is modelled |
| `utils.py` `ModelOutputReader.path_flow1d` | 1238-1240 | reads or sets one field, or calls one function that is modelled |
| `utils.py` `ModelOutputReader.path_flow2d` | 1252-1254 | reads or sets one field, or calls one function that is modelled |
| `utils.py` `ModelOutputReader._dateparser` | 1352-1354 | reads or sets one field, or calls one function that is modelled |
| `utils.py` `ModelOutputReader.output_path` | 1357-1359 | reads or sets one field, or calls one function that is modelled |
| `utils.py` `ModelOutputReader.time_offset_1d` | 1416-1418 | reads or sets one field, or calls one function that is modelled |
| `utils.py` `ModelOutputReader.time_offset_1d` | 1421-1422 | reads or sets one field, or calls one function that is modelled |
| `utils.py` `Compare1D2D.routes` | 1671-1673 | reads or sets one field, or calls one function that is modelled |
| `utils.py` `Compare1D2D.colorscheme` | 1693-1695 | styling of figures: no effect on data or files |
| `utils.py` `Compare1D2D.stations` | 1715-1717 | reads or sets one field, or calls one function that is modelled |
| `utils.py` `Compare1D2D._style_error_axes` | 1893-1898 | styling of figures: no effect on data or files |
| `utils.py` `Compare1D2D._sec_to_days` | 2098-2099 | not called in the package, or only by a caller that is modelled with it written out |
| `utils.py` `Compare1D2D.figure_longitudinal_time` | 2182-2190 | reads or sets one field, or calls one function that is modelled |
| `utils.py` `Compare1D2D._catch_e` | 2479-2484 | not called in the package, or only by a caller that is modelled with it written out |

## Properties the code does not have

Each line is the first sentence of the comment at the theorem that proves it.

| theorem | what goes wrong |
|---|---|
| `C181_stale_violated` | After a run with sections that returned true, another section file can be set: a run with overwriting then does what it would have done without setting it, whatever the polygons in the file are, as long as they can be read |
| `C182_relative_violated` | The configuration is printed with the output directory as it was set, and it is then below the directory of the new file: the command leaves what the script wrote as it was, whatever `overwrite` says, and changes another directory |
| `C203_volumes_violated` | , for every cross-section with a positive length when the smallest width is positive: the volumes in the volume file are not those of the levels and total widths beside them |
| `C10_missing_velocity_violated` | Three missing velocities switch the relative criterion off, although velocities are present: the mean of the largest present velocity is 1/1000, and a cell above 3 % of it does not convey |
| `C67_flow_exceeds_total_violated` | A resting lake with a velocity above the threshold counts for the flow area and not for the wet area: with two cells the flow area at the first map is 400 and the wet area 100 |
| `C73_negative_volume_violated` | The pool correction is not bounded by the depth: a cell that is deeper than the centre at the first map and falls later contributes a negative volume |
| `C28_region_named_like_id_violated` | C28 is violated by a region that has no cross-section but is named like one of another region: its face is assigned to that cross-section |
| `C28_edges_violated` | C28 is violated for edges of a region that has a cross-section but no face: they are assigned to none |
| `C122_dotted_violated` | For a name with a dot `create` makes a configuration file that the commands do not look at: whatever it contains, they do what they do without it |
| `C123_replaced_violated` | Creating a project replaces a configuration file of this name, whatever it contains |
| `C124_missing_violated` | Running or checking a project without a configuration file ends without an error, and makes an output directory |
| `C125_failed_violated` | A run that reports failure ends with status 0 as well |
| `C126_sections_violated` | A file without a section `input` or without a section `output` raises an `AttributeError` |
| `C126_text_violated` | A file that starts with a line outside of any section raises an exception of the parser |
| `C127_log_violated` | Checking a project whose output directory exists adds to the log file there |
| `C58_unset_violated` | The second of two series read without start and stop time loses the records outside the times of the first one |
| `C88_violated` | Two 2D stations along the Waal with the same first nine characters: the second one is compared with the first one |
| `C60_label_violated` | The levels at discharges from 200 to 400 are labelled with 400 |
| `C60_last_violated` | A level at a discharge at or above the last bin is used nowhere |
| `C89_short_violated` | For every series of less than six days the figure cannot be made: a `ValueError` is raised |
| `C90_violated` | Of two stations with the same levels only the first one is drawn |
| `C91_violated` | If no level of the last station is known, choosing the discharges raises a `ValueError` instead of choosing none |
| `C180_stale_violated` | After a comparison, one of any other results with the same output directory, or of files that do not exist, exits as the first one did and leaves its tables and figures in place |
| `C166_torn_violated` | Whenever a run is interrupted while it writes a result file, the file is left incomplete and every further run without the overwrite option is refused as if there were results: nothing is changed, however often it is tried |
| `C167_unlisted_violated` | Whenever a run comes to its end and can write the envelopes, it writes a file that is not in the list of output files: a directory that holds only this file counts as one without output, and the file is replaced without the overwrite option |
| `C167_never_violated` | C167, violated: a listed file that is never written |
| `C46_equal_levels_violated` | Levels that are closer are printed as the same number |
| `C48_flow_area_violated` | For every cross-section with a summer dike the column of the flow area holds the total area |
| `C48_field_count_violated` | The header has twenty columns and every metadata row twenty-four fields |
| `C79_capitals_violated` | For every cross-section on a branch with a capital in its name neither levels nor values are found, whatever was exported |
| `C132_other_names_violated` | One name of which the part after the last underscore is no number, or a name without underscore that is no number, makes that no branch can be listed |
| `C133_branches_violated` | As soon as there are cross-sections on two branches, asking for any branch raises `ValueError` |
| `C134_plot_all_violated` | Plotting all cross-sections raises `TypeError` whenever there is one, and leaves no figure: after a run that reports success, whatever its input |
| `C135_no_sections_violated` | After a run that reports success without section polygons, in a directory without earlier results, no figure can be made of any cross-section |
| `C139_branches_violated` | With cross-sections on two branches there is no longitudinal figure of any branch: `ValueError` is raised |
| `C139_capitals_violated` | When the name of the only branch has capitals there is no longitudinal figure: `TypeError` is raised |
| `C137_flow_violated` | The curve labelled as the flow volume with the correction is that without it |
| `C149_no_storage_violated` | The extra flow volume is fitted to the 2D *total* volumes |
| `C149_flow_spoiled_violated` | When the flow volumes of a cross-section already are those of the 2D model and total volume is missing, the correction spoils the flow volumes |
| `C149_flow_unused_violated` | Whatever the search, methods 0 and 1 use nothing of the 2D flow volumes but the start value: change them in any way that keeps the last difference, and the correction stays the same |
| `C149_split_violated` | Method 2 does not determine the result: if an exact search gives extra volumes `t` and `f`, then for every part `d` of `f` there is another exact search that gives `t + d` and `f - d` from the same data |
| `C154_unknown_violated` | With a name that is not one of the formats nothing is raised, and the file is empty afterwards, whatever was in it |
| `C154_test_roughness_violated` | The export raises `AttributeError` for every list of cross-sections but the empty one, and leaves a file with a header and no rows |
| `C163_missing_rules_violated` | If the rule file does not exist (its path has a mistake, say), the generator does what it does without rules, and reports nothing |
| `C163_torn_violated` | When a list of ids is too short for the network, the location file that was there is lost: what is left is the part before the first location without an id, and `IndexError` is raised |
| `C173_shared_violated` | When two projects have the same map file, the sections of faces and edges that `run` of the second one uses after `run` of the first one are those of the first one, whatever polygons the second one names, because the cache files are beside the map file |
| `C175_shallow_violated` | A face that gets wet after the first map, by a millimetre or less, and that is still under water by one centimetre or less in map `LakeTimesteps`, is taken for a lake: the width at that level is too small |
| `C39_debug_violated` | They can be read in any capitalisation, but setting one changes nothing: the old value is read back, whatever value was set |
| `C84_violated` | A file without a section `output` is rejected with an error, but its parameters are in force afterwards |
| `C85_violated` | The configuration of a project in the directory `project` has been loaded, with the map file next to it |
| `C86_violated` | With the configuration file in the directory `project`, setting the output directory creates one directory and names another one, which does not exist |
| `C174_torn_violated` | When a run that would have succeeded was stopped while it wrote a cache file, `run` with overwriting has exit status 1 and leaves no results, however often it is repeated |
| `C104_floodplain_violated` | for the base level of the floodplain without correction: with section polygons it is minus the tolerance, whatever the levels of the river are |
| `C106_mean_velocity_violated` | for the other way of finding the flowing part: it takes the mean velocity over rows with neighbouring numbers |
| `C107_missing_velocity_violated` | for a face without velocities: sorting puts them last, so that they are among the three largest |
| `C106_two_nearest_violated` | for a location with two nearest faces: which of them gives the water levels depends on the numbers of the faces, and the profile with it |
| `C35_legacy_header_violated` | A header above lines in the old format is not skipped: the file is rejected |
| `C35_blank_line_violated` | So is a file with an empty line, even at its end |
| `C56_three_points_violated` | `ignoreEdges` on a branch of three points leaves one point, but two lengths: the branch is refused instead of giving the middle point the length of the branch |
| `C56_single_point_violated` | `onlyEdges` on a branch of a single point gives that point twice |
| `C57_unknown_violated` | An id that is not on the branch stops the generator, although the message logged for it suggests that it is passed over |
| `C57_duplicate_violated` | An id listed twice removes two points: the second one is a point that was not excepted |
| `C64_second_run_violated` | C64 is false of a second run of a project: it reports the warnings and errors of both runs |
| `C64_second_project_violated` | C64 is false of every project after the first: whatever is logged, it reports no warnings and no errors |
| `C93_critical_violated` | C93 is false of critical messages: an ordinary critical message does not get into the log file |
| `C94_violated` | C94 is false: whatever a later project logs is written to the log file of the first as well |
| `C155_short_violated` | With less than six days of 1D records from the start to the stop time `ValueError` is raised |
| `C155_other_times_violated` | Two models with the same levels at all times at which both have a record; the figure shows a difference of one metre on every other day |
| `C156_same_km_violated` | In every figure of a statistic all stations with the same kilometre show the same value |
| `C156_same_levels_violated` | Where the 1D model has the same levels at two stations, and the 2D model has not, no difference is shown at the second one |
| `C157_window_violated` | They have no influence on heat maps |
| `C157_same_violated` | Where the two models agree at all times for all stations, there is at most one row, however many stations there are |
| `C158_statistics_violated` | All figures along a route are in the same file: of two of them the second one is left |
| `C158_station_violated` | The time series and the rating curve of a station are in the same file |
| `C158_title_violated` | Discharges of different stations with the same title, such as the default one, are in the same file |
| `C159_missing_violated` | At a record with a discharge at one station only, this station is given a hundred percent |
| `C159_differences_violated` | The differences shown are those of the second station only, and the start and stop time have no influence on them |
| `C160_no_routes_violated` | Without routes, the default, `eval` raises `TypeError` and makes no figure at all |
| `C160_short_violated` | With routes and less than six days of 1D records from the start to the stop time, `eval` raises an error after at most one figure, of rating curves: there are no heat maps and no figures of stations |
| `C161_word_violated` | With any other word than `time` and `qh` there is no error for this, and a figure without curves |
| `C162_same_km_violated` | If the last two stations of a route have the same kilometre and different curves, `ValueError` is raised |
| `C152_unused_violated` | Nothing of `mesh2d_u1` is used: with any values there what is imported stays the same |
| `C152_face_roughness_violated` | With section polygons nothing of `mesh2d_czs` is used: with any values there a run has the same data |
| `C153_fill_value_violated` | Where a result is missing in the file, the fill value stored there is imported as a number |
| `C153_marks_ignored_violated` | Which values are marked as missing does not matter: two files with the same stored numbers give the same data, and hence every run the same results |
| `C150_text_violated` | The README gives the map file as a text |
| `C150_set_text_violated` | So setting the map file of a usable configuration to a text, in any capitalisation of the name, gives settings with which every run raises, whereas setting it to a `Path` gives the same settings but for this |
| `C68_nan_violated` | C68 is false of points with a NaN, such as a face whose bed level is not known: the point is accepted, and the file of all points breaks off, whatever the other points are |
| `C95_violated` | C95 is false: no face is ever marked as a lake, as the mark is made on import and not when lakes are found |
| `C96_violated` | C96 is false: if the hull of a single cross-section fails otherwise, as it does when all its faces are in line, no envelope of any cross-section is exported |
| `C190_stray_violated` | Loading a configuration file makes its output directory in the current directory as well: when the command is given elsewhere, an empty directory is left there |
| `C198_namesakes_violated` | for every location file in which a name occurs twice: without regions a face that is nearer to one of these lines than to all lines with other names counts for both, however far away the other one is |
| `C76_previous_branch_violated` | A branch whose ids come after the tenth line silently gets the ids of the branch before it |
| `C76_extra_id_violated` | A branch with one id too many shifts the ids of all branches after it: in the file the first point of the second branch carries an id of the first branch, and nothing is reported |
| `C57_capitals_violated` | Ids in the network are read in lower case but exceptions are not: an id written alike in both files is not found, and the generator stops |
| `C77_two_points_violated` | On a branch of two points, a straight line of ten metres along x, the second point is put at 9.1 m instead of 9 m: the moved first point is used with its old offset |
| `C200_overlap_violated` | , whichever of them comes first: when a location and the first node of a face are in the same polygons, and the first and the last of these are of different regions, the face does not belong to the location, however near it is |
| `C200_inner_first_violated` | A polygon has a region of its own, and all nodes of the grid in it are also in polygons that come after it |
| `C200_inner_last_violated` | A polygon has a region of its own, and all locations in it are also in polygons that come before it |
| `C189_same_directory_violated` | The check for results and the writing are not one step |
| `C189_mixed_violated` | Two runs with the same output directory, in which there are no results, that both write some file: there is an order of the steps in which this file ends with the text of the second run and then what is left of the longer text of the first run, and both runs end as on their own |
| `C189_cache_violated` | Two runs of the same settings with different output directories, started when a cache file has to be made: both would succeed on their own, and there is an order of the steps in which the second one raises an error (`JSONDecodeError`) and writes nothing, for it finds the cache file that the first one is writing |
| `C98_no_roughness_violated` | A run without section polygons leaves no roughness file for D-Flow 1D, and only the header in that for SOBEK 3, whatever the roughness of the edges is: the edges get the sections "1" and "2", and there are no files for these |
| `C33_multi_part_violated` | C33 is violated: a feature with several polygons, or with holes, is accepted, and only the outer ring of its first polygon is kept |
| `C32_capitals_violated` | C32 is violated: a section written with a capital is accepted and keeps it, and is then none of the names that the exporters know |
| `C34_changed_polygons_violated` | C34 is violated: after the polygons are changed and the map file is not, the old classification is returned |
| `C172_missing_violated` | A configuration file that names a polygon file that does not exist, for example with a mistake in the name, is not refused: `run` leaves the same files, with the same exit status, as with a configuration file without this line |
| `C144_edited_sections_violated` | After a run, the polygons of the section file can be replaced and `DefaultSection` changed: as long as the map file stays, another run does what it would have done without |
| `C144_edited_regions_violated` | Likewise for the regions of faces and edges |
| `C145_raises_violated` | A run that is not refused raises when a polygon file is missing, has another extension or has two polygons of the same name |
| `C146_no_region_violated` | Region polygons are said to need a region |
| `C147_unknown_section_violated` | When a requested location has an edge in a section with another name than the three known ones, such as `Main` (which is accepted in a section file) or a `DefaultSection` of one's own, a run that returns true leaves the roughness files of all sections whose names come later in the alphabet as they were |
| `C168_torn_violated` | When a run that would have succeeded was stopped while it wrote a cache file, every later run that is not refused raises `JSONDecodeError` and changes nothing: no run of the project succeeds until the cache file is removed by hand |
| `C131_dry_violated` | Whatever the roughness of its edges is when they are wet: when the edges in a section are all dry at the first map that is used, the roughness file gives zero for that location at every level up to the first water level |
| `C112_zone_violated` | The time zone in the units is ignored: units with different zones give the same times |
| `C109_midnight_violated` | When all times are at midnight, reading a second time gives tables whose times are texts: no time window works on them, although the same window may work after the first reading |
| `C110_stale_violated` | In a directory with tables of an earlier reading, new results are not read at all: the tables are those of the earlier results, whatever results and whatever offset are given now |
| `C110_offset_violated` | In particular a new offset has no effect, unless there are no times |
| `C111_discharges_violated` | After a reading was interrupted while it wrote the 1D discharges, at the end of some line, the next reading takes the table as it is: discharges are there for the first times only, and nothing is reported |
| `C111_map_violated` | After a reading was interrupted while it wrote the mapping of stations, at the end of some line, the next reading leaves out the stations that are not in it: the 2D tables have the first stations only, and nothing is reported |
| `C113_numbers_violated` | When all names of 2D stations that belong to a 1D station look like numbers, no value is found for any station: all 2D levels are missing |
| `C113_midnight_violated` | When the 2D results are all at midnight, their tables have texts for times already after the first reading: no time window works on them |
| `C114_only_2d_violated` | A 2D path without a 1D path is ignored: when the tables of the 1D results are there and those of the 2D results are not, the comparison fails although the 2D results can be read |
| `C114_only_1d_violated` | A 1D path without a 2D path always raises an exception, also when the 2D results are not needed any more |
| `C192_window_violated` | The first and last time of the first table that is shown stay the start and stop time of the reader, and nothing but assigning a time changes that: later results that start where those ended are refused, also from another directory |
| `C192_stale_violated` | After reading other results has failed, the reader goes on to show the tables of the results before |
| `C192_early_map_violated` | Asking for the mapping of stations before the 1D results are loaded raises an exception, but leaves a mapping without stations, which is used from then on |
| `C192_settings_violated` | With tables in the output directory, another path and another offset have no effect on the tables that are loaded |
| `C191_namesake_violated` | A name is not only a name when a region without cross-sections has it too: the faces of that region count as faces of the cross-section |
| `C164_lake_violated` | The third map has the level of the second at the centre |
| `C164_mean_velocity_violated` | With the other way to find the flowing part, fast flow in a map after the highest water makes all that flows at the highest level count as storage |
| `C165_flow_violated` | With the default thresholds the slow face flows in the coarse grid and is storage in the finer one, since the three largest velocities are then all those of one face of before |
| `C23_dry_link_violated` | C23 is violated: one link that is dry at a map makes the area-weighted roughness of its section zero at that map, whatever the other links are |
| `C23_always_fails_violated` | C23 is violated: the areas are never among the data of a cross-section, and without them area weighing fails for every cross-section that has links |
| `C74_falling_water_violated` | C74 is violated when the water falls: with levels 2, 3, 2.5 and 5 m the 2D roughness is 40 at level 3 m, reached in one map only, but the table read at 3 m gives another value |
| `C75_single_level_violated` | C75 is violated when all tables of a section together have a single level: the tables become empty |
| `C51_violated` | If the location file cannot be opened, the definition and roughness files are not written either |
| `C53_raises_violated` | A selection of a location that does not exist raises an exception, and so does a location that cannot be built |
| `C53_true_violated` | A run without cross-sections reports success without having written a result file, and so does a run whose output directory has been removed |
| `C87_violated` | A first run leaves a roughness file for a section that the second run, which overwrites, does not have: the file stays, with the roughness of a cross-section that is no longer there |
| `C18_negative_width_violated` | A channel without floodplain that is as wide at the bottom as at the top gets a negative floodplain width |
| `C19_named_labels_violated` | With named labels, as section polygons give, a floodplain of 200 square metres has no width |
| `C20_named_labels_violated` | A floodplain labelled by name is not seen: its mean bed level is low enough but not used |
| `C20_unknown_beds_violated` | Without any known bed level in the floodplain the base is missing altogether |
| `C170_nonalluvial_violated` | The width of the floodplain cannot be asked for: the non-alluvial width is zero for every cross-section, because the names it looks for are not those of the sections |
| `C142_no_effect_violated` | `CaseName`, `MinimumDepthThreshold` and `BedlevelCriterium` can be set to any value: the settings of a run stay the same, and so do its results whatever the files are |
| `C142_wrong_type_violated` | The documentation promises an error when a value of the wrong type is set |
| `C142_switch_text_violated` | A switch that is set to a text is on, also when the text is `False` |
| `C169_empty_violated` | A share of less than two points leaves no points at all, not even the ends of the line |
| `C115_stale_violated` | Once rating curves are stored in the output directory, every later comparison shows them, whatever the results are that it compares |
| `C115_wrong_violated` | With new results, the rating curves shown are wrong |
| `C116_ignored_violated` | The rating curves do not depend on the start and stop times |
| `C116_wrong_violated` | With a start time after the first record, the rating curve still contains that record |
| `C117_kept_violated` | Once a station has been shown, changing the start and stop times does not change what is shown for any station |
| `C117_wrong_violated` | After the start time was changed, the bias shown differs from that of a new comparison |
| `C119_suffix_violated` | With a name that has a suffix, such as `statistics.csv`, only the summary remains |
| `C119_columns_violated` | The columns are not the documented ones: in particular there is no column `max13` or `last25` |
| `C121_small_violated` | A station with `lmw` in small letters is a measuring station in the statistics, but on no route |
| `C194_clash_violated` | A location may be called like the flow mask of another one |
| `C196_widths_violated` | There is a map for which a higher threshold gives a profile with the same levels and a larger flow width at the highest one of them: with the lower threshold a small face makes the widths increase, with the higher one the repair of repeated widths does, and adds more |

{"id": "C01", "title": "Only rising water levels enter a profile", "statement": "When a cross-section is built from a water level history at its location, output map i contributes a profile point exactly when i is the first map or its level is strictly above the level of every earlier map; the contributing levels are therefore strictly increasing, and a map that is rejected has a level at or below some earlier accepted one. The number of answers equals the number of maps.", "quantifier": "every finite sequence of water levels from any linearly ordered number type (so every non-NaN float sequence), of any length", "why_tests_cant": "The filter compares with the last accepted value and histories may rise and fall arbitrarily often; tests only try a handful of flood waves.", "anchors": ["fm2prof/cross_section.py::CrossSection._check_monotonicity", "fm2prof/cross_section.py::CrossSection.build_geometry"]}
{"id": "C02", "title": "Exported levels strictly increase", "statement": "After the requirement check and after point reduction to any requested number of points, the levels of the profile are strictly increasing, whatever the levels were before the check.", "quantifier": "every list of levels, every total and flow width lists of the same length, every minimum width and every requested number of points", "why_tests_cant": "The chain repair, reduce, slice must preserve order for every geometry; a hydraulic model refuses a profile with a repeated level.", "anchors": ["fm2prof/cross_section.py::CrossSection.check_requirements", "fm2prof/cross_section.py::CrossSection._check_increasing_order", "fm2prof/cross_section.py::CrossSection.reduce_points"]}
{"id": "C03", "title": "Exported widths are increasing, ordered and at least the minimum", "statement": "After the requirement check and after point reduction, total width and flow width are strictly increasing with height, flow width never exceeds total width at the same level, and both are at least the configured minimum width.", "quantifier": "every raw geometry with at least one non-zero total width, every minimum width, every requested number of points", "why_tests_cant": "Four in-place repairs are applied in sequence and a later one could undo an earlier one; only a proof covers every order of dips, zeros and crossings.", "anchors": ["fm2prof/cross_section.py::CrossSection.check_requirements", "fm2prof/cross_section.py::CrossSection._check_remove_zero_widths", "fm2prof/cross_section.py::CrossSection._check_increasing_order", "fm2prof/cross_section.py::CrossSection._check_total_width_greater_than_flow_width", "fm2prof/cross_section.py::CrossSection.reduce_points"]}
{"id": "C04", "title": "The increasing-order repair is minimal and stable", "statement": "Repairing a list into increasing order never lowers a value, leaves an already strictly increasing list untouched, gives the same result when applied again, is the least list above the input whose dips are replaced by the previous value plus one step, and never raises a value above the running maximum of the input plus the number of preceding points times the step.", "quantifier": "every list over every ordered field and every positive step", "why_tests_cant": "Chained dips accumulate steps; the bound and the idempotence depend on the whole prefix.", "anchors": ["fm2prof/cross_section.py::CrossSection._check_increasing_order"]}
{"id": "C05", "title": "Flow width above the first level never decreases and is the best such curve", "statement": "Above the first simulated level the flow width used is non-decreasing with level, nowhere larger than the measured flow area divided by the length, equal to it at the highest level, and every other non-decreasing curve below the measured one lies below it.", "quantifier": "every list of flow areas and every positive length", "why_tests_cant": "The correction sweeps backwards over an arbitrary list; optimality quantifies over all other curves.", "anchors": ["fm2prof/cross_section.py::CrossSection._compute_css_above_z0"]}
{"id": "C06", "title": "Geometry below the first water level", "statement": "Below the first simulated level the profile has exactly ten extra points, equally spaced from the bed level at the location up to the first level; their total width is non-decreasing with height, their flow width never exceeds their total width, and with storage extrapolation on the flow width also never exceeds the flow width measured at the first map.", "quantifier": "every number of cells, cell areas, bed levels, water levels, lake masks, centre depth and length", "why_tests_cant": "The set of cells counted at each step depends on comparisons for every cell with a tolerance; monotonicity is a statement over all cell sets.", "anchors": ["fm2prof/cross_section.py::CrossSection._extend_css_below_z0"]}
{"id": "C07", "title": "Profile arrays stay aligned", "statement": "After a cross-section is built, level, total width, flow width, wet area, flow area, 2D volumes and 1D volumes all have the same number of points: ten plus the number of accepted maps; the 2D volumes are missing exactly at the ten points below the first level.", "quantifier": "every 2D input for a control volume and every configuration for which the build succeeds", "why_tests_cant": "Every array is filtered, prefixed and integrated by separate statements; one missed mask shifts volumes against levels for all later processing.", "anchors": ["fm2prof/cross_section.py::CrossSection.build_geometry", "fm2prof/cross_section.py::CrossSection._extend_css_below_z0"]}
{"id": "C08", "title": "1D volumes grow with level", "statement": "The 1D volume curves start at zero at the bed, never decrease with level, and the flow volume never exceeds the total volume at the same level, provided levels do not decrease and widths are non-negative with flow width at most total width.", "quantifier": "every list of levels and widths of any length and every non-negative length", "why_tests_cant": "Cumulative integration accumulates over arbitrarily many points.", "anchors": ["fm2prof/cross_section.py::CrossSection.build_geometry"]}
{"id": "C09", "title": "Lakes count only after they start rising", "statement": "A cell is a lake exactly when it is wet at the lake map and its depth there differs at most 1 cm from its first depth. A lake cell contributes nothing to the wet area from the first map until the first map at which its depth has risen by more than 1 mm in one map step, and contributes whenever wet from then on; a cell that is not a lake contributes exactly when it is wet. The lake's depth correction is minus its initial depth at every map and zero for other cells.", "quantifier": "every depth history of every cell over any number of maps and every lake map index", "why_tests_cant": "The mask is a recurrence in time per cell; tests see a few time series only.", "anchors": ["fm2prof/cross_section.py::CrossSection._identify_lakes"]}
{"id": "C10", "title": "Conveyance criteria", "statement": "With the default method a cell conveys at a map exactly when it is wet and its velocity exceeds the absolute threshold or the relative threshold times the mean of the three largest velocities at that map; with the legacy method exactly when it is wet and its smoothed velocity exceeds the absolute threshold and the relative threshold times the mean smoothed velocity; any other method number behaves as the default. Raising a threshold never turns a storage cell into a conveying one, and a dry cell never conveys.", "quantifier": "every matrix of depths and velocities (missing values included), all thresholds and every method number", "why_tests_cant": "The reference velocity depends on all cells of the map; monotonicity in the thresholds quantifies over pairs of runs.", "anchors": ["fm2prof/cross_section.py::CrossSection._distinguish_conveyance_from_storage"]}
{"id": "C11", "title": "Summerdike volumes are physical for any optimiser", "statement": "Whatever values the numerical optimiser returns, and whatever the configured optimisation method number is, the extra flow volume is between zero and the extra total volume, hence so are the exported areas for positive lengths.", "quantifier": "every answer of the optimiser, all three methods and every invalid method number", "why_tests_cant": "The optimiser is a black box that can return anything, including negative volumes.", "anchors": ["fm2prof/cross_section.py::CrossSection._optimize_sd_storage", "fm2prof/cross_section.py::CrossSection.calculate_correction"]}
{"id": "C12", "title": "Release of the extra volume", "statement": "The fraction of extra volume released at a level is strictly between zero and one, strictly increasing with level, one half at the middle of the transition zone, at most sqrt(1e-5)/(1+sqrt(1e-5)) at the crest and at least the complement at the top; so corrected volumes are never below uncorrected ones and keep flow at most total.", "quantifier": "all real levels, crest levels and positive transition heights", "why_tests_cant": "It is a statement over a continuum.", "anchors": ["fm2prof/cross_section.py::CrossSection._get_extra_total_area", "fm2prof/cross_section.py::CrossSection.calculate_correction"]}
{"id": "C13", "title": "The volume correction is applied completely or not at all", "statement": "If computing the correction fails at any step, every published attribute of the cross-section is as before; if it succeeds, corrected volumes, crest level, transition height, volumes and areas all come from one optimisation result and the cross-section is marked corrected.", "quantifier": "every point of failure inside the correction and every prior state", "why_tests_cant": "Crash points are many and tests do not inject failures in each of them.", "anchors": ["fm2prof/cross_section.py::CrossSection.calculate_correction", "fm2prof/fm2prof_runner.py::Fm2ProfRunner._perform_2D_volume_correction"]}
{"id": "C14", "title": "Point reduction keeps a sub-profile with its endpoints", "statement": "Reducing a profile to n points yields a subsequence of the original points, the same subsequence for levels, total and flow widths; a profile with at most n points is unchanged; otherwise at most n points remain, and for n at least 2 the first and last point always remain.", "quantifier": "every profile of any length and every n", "why_tests_cant": "The simplifier shuffles two parallel arrays in a loop; aliasing or index errors show only on particular shapes.", "anchors": ["fm2prof/cross_section.py::CrossSection.reduce_points", "fm2prof/lib/polysimplify.py::VWSimplifier.from_number_index"]}
{"id": "C15", "title": "Point reduction reaches the requested number and nests", "statement": "When all interior importance values differ, reduction from more than n points to n (n at least 2) leaves exactly n points; a reduction to fewer points always keeps a subset of a reduction to more points; a point kept has importance at least that of any point dropped.", "quantifier": "every profile, every pair of requested numbers", "why_tests_cant": "Nested results quantify over pairs of calls.", "anchors": ["fm2prof/lib/polysimplify.py::VWSimplifier.build_thresholds", "fm2prof/lib/polysimplify.py::VWSimplifier.from_number", "fm2prof/lib/polysimplify.py::VWSimplifier.from_threshold"]}
{"id": "C16", "title": "The simplifier always terminates and removes each interior point once", "statement": "Computing importance values of a line with at least two points terminates after removing each interior point exactly once and never one of the endpoints; successive removals have non-decreasing importance; the endpoints keep infinite importance; each interior point's importance is the triangle area it had when removed or the importance of an earlier removal.", "quantifier": "every line of any number of points with any coordinates", "why_tests_cant": "Termination and the exact removal order are loop invariants over arrays that are shifted in place.", "anchors": ["fm2prof/lib/polysimplify.py::VWSimplifier.build_thresholds", "fm2prof/lib/polysimplify.py::triangle_areas_from_array", "fm2prof/lib/polysimplify.py::remove"]}
{"id": "C17", "title": "Section widths cover the flow width and the main section covers the bottom", "statement": "After section widths are assigned, their sum is at least the flow width at the top of the profile, and the main section is at least 10 cm wider than the lowest flow width; moving width between main and floodplain does not change the sum.", "quantifier": "every set of cell areas and section labels, every positive length, every profile", "why_tests_cant": "Two corrections interact (one adds width, one moves it after rounding down to whole centimetres).", "anchors": ["fm2prof/cross_section.py::CrossSection._compute_section_widths", "fm2prof/cross_section.py::CrossSection._check_section_widths_greater_than_flow_width", "fm2prof/cross_section.py::CrossSection._check_section_widths_greater_than_minimum_width"]}
{"id": "C18", "title": "Section widths are never negative", "statement": "After section widths are assigned every section width is non-negative.", "quantifier": "every set of cell areas and section labels, every positive length, every profile", "why_tests_cant": "The violating geometry (a channel as wide at the bottom as at the top without floodplain) has to be found; tests use natural profiles.", "anchors": ["fm2prof/cross_section.py::CrossSection._check_section_widths_greater_than_minimum_width"]}
{"id": "C19", "title": "Section widths reflect the area assigned to each section", "statement": "Before the two corrections, width times length of every section is the sum of the areas of the cells with that section label, cells without label counting as main; the three add up to the whole control volume.", "quantifier": "every assignment of section labels to cells, numbered or named", "why_tests_cant": "Labels come in two encodings depending on the configuration path taken; tests exercise one.", "anchors": ["fm2prof/cross_section.py::CrossSection._compute_section_widths", "fm2prof/fm2prof_runner.py::Fm2ProfRunner._set_fm_model_data"]}
{"id": "C20", "title": "Floodplain base is below the crest", "statement": "The floodplain base level is at most the crest level minus the configured tolerance; it equals the mean bed level of the floodplain when that is low enough and the crest minus the tolerance otherwise or without floodplain.", "quantifier": "every crest level, tolerance and list of floodplain bed levels, missing values included", "why_tests_cant": "Covers all means; the 1D model becomes unstable when the base reaches the crest.", "anchors": ["fm2prof/cross_section.py::CrossSection._compute_floodplain_base"]}
{"id": "C21", "title": "Volume error is a squared relative error", "statement": "The cost used for fitting is non-negative, ignores exactly the points where prediction or measurement is missing, and is zero if and only if prediction equals measurement at all other points; errors are relative to the measurement or to one, whichever is larger.", "quantifier": "every pair of equally long volume series with missing values", "why_tests_cant": "Quantifies over all series.", "anchors": ["fm2prof/cross_section.py::CrossSection._return_volume_error"]}
{"id": "C22", "title": "Mean roughness", "statement": "With simple weighing, the roughness of a section at a map is the mean of its non-zero link values, zero when there is none, and lies between the smallest and largest of them; the order of links does not matter.", "quantifier": "every matrix of link roughness values, missing values included", "why_tests_cant": "Every pattern of zero and missing values.", "anchors": ["fm2prof/cross_section.py::CrossSection._friction_weighing_simple", "fm2prof/cross_section.py::CrossSection._build_roughness_tables"]}
{"id": "C23", "title": "Area-weighted roughness", "statement": "With area weighing, the roughness of a section at a map is a convex combination of its link values with weights proportional to the mean area of the adjoining faces; it lies between the smallest and largest value when all links are wet.", "quantifier": "every matrix of link values and every list of positive weights", "why_tests_cant": "Every pattern of dry links.", "anchors": ["fm2prof/cross_section.py::CrossSection._friction_weighing_area"]}
{"id": "C24", "title": "Roughness interpolation is faithful", "statement": "Resampling a roughness table returns the table's value at its own levels, stays between the values of the enclosing two levels in between, is the first value below and the last value above its range, and keeps the number of requested levels.", "quantifier": "every table with strictly increasing levels and every list of requested levels", "why_tests_cant": "Continuum of query points.", "anchors": ["fm2prof/common.py::FrictionTable.interpolate"]}
{"id": "C25", "title": "Uniform roughness levels", "statement": "After friction tables are harmonised, all cross-sections that have a section share identical levels for it: they start at the lowest level of any of them, step 0.1 m, stay below the highest level and leave at most one step above the last; other sections are untouched and no section appears or disappears.", "quantifier": "every list of cross-sections and any set of sections", "why_tests_cant": "Any number of cross-sections with any ranges.", "anchors": ["fm2prof/cross_section.py::CrossSectionHelpers._interpolate_friction_across_cross_sections"]}
{"id": "C26", "title": "Exported roughness tables are rectangular", "statement": "In the exported roughness file of a section, every branch with a cross-section that has this section appears in exactly one branch block, which declares as many levels as it lists; every cross-section that has the section gets one definition block with its branch and chainage, in order, and one friction value for each level of its branch.", "quantifier": "every list of cross-sections whose tables of a section share the same levels", "why_tests_cant": "Any number of branches, locations and levels.", "anchors": ["fm2prof/export.py::Export1DModelData._write_roughness_fm1d", "fm2prof/export.py::Export1DModelData._get_fm1d_branch_sec"]}
{"id": "C27", "title": "Points go to the nearest cross-section", "statement": "Without regions every 2D face and edge is assigned to exactly one cross-section: one whose location is at minimal distance among all.", "quantifier": "every set of cross-section locations (at least one), every set of points", "why_tests_cant": "Continuum of point sets.", "anchors": ["fm2prof/nearest_neighbour.py::classify_without_regions", "fm2prof/nearest_neighbour.py::_get_class_tree"]}
{"id": "C28", "title": "Regions confine control volumes", "statement": "With regions, a point in a region that contains a cross-section is assigned to a nearest cross-section of the same region and never to one of another region; points in regions without cross-section belong to none.", "quantifier": "every assignment of points and cross-sections to regions", "why_tests_cant": "The loop overwrites a shared column region by region.", "anchors": ["fm2prof/nearest_neighbour.py::classify_with_regions"]}
{"id": "C29", "title": "Control volumes partition the 2D grid", "statement": "The faces selected for the cross-sections are pairwise disjoint and, without regions, every face is selected for exactly one cross-section, so the areas of all control volumes add up to the area of the grid.", "quantifier": "every classification of faces and every list of distinct cross-section ids", "why_tests_cant": "A sum over an unbounded number of control volumes.", "anchors": ["fm2prof/data_import.py::FmModelData.get_selection", "fm2prof/fm2prof_runner.py::Fm2ProfRunner._set_fm_model_data"]}
{"id": "C30", "title": "Automatic section split", "statement": "Without section polygons every face and every edge is labelled main channel (1) or floodplain (2); all labelled main when the roughness values span at most one unit; otherwise a point is main exactly when its last roughness is above one common split value, both classes are non-empty, every main value is higher than every floodplain value, and the split minimises the larger of the two class variances over all candidate splits at one-unit spacing from the minimum (the first such split).", "quantifier": "every list of roughness values", "why_tests_cant": "Optimality over all candidate splits.", "anchors": ["fm2prof/fm2prof_runner.py::Fm2ProfRunner._classify_roughness_sections_by_variance"]}
{"id": "C31", "title": "Polygon classification of points", "statement": "Every point gets exactly one label: the default when it is in no polygon, and the name of the only polygon that contains it when exactly one does.", "quantifier": "every list of polygons, every containment relation and every list of points", "why_tests_cant": "All containment patterns including overlaps.", "anchors": ["fm2prof/polygon_file.py::MultiPolygon.get_points_in_polygon", "fm2prof/polygon_file.py::MultiPolygon.get_gridpoints_in_polygon"]}
{"id": "C32", "title": "Section polygons are validated", "statement": "A section polygon file is accepted exactly when every polygon has a section that is main, floodplain1, floodplain2 or one of the numbers 1, 2, 3 that stand for them, in any case; the sections of an accepted file are then the three names the exporters know; every pair of overlapping polygons is reported.", "quantifier": "every polygon file", "why_tests_cant": "All sets of names and overlap relations.", "anchors": ["fm2prof/polygon_file.py::SectionPolygon._validate_sections", "fm2prof/polygon_file.py::MultiPolygon.check_overlap"]}
{"id": "C33", "title": "Polygon files are read completely or rejected", "statement": "Reading a polygon file yields one polygon per feature with its name and rings in order; a file with a duplicate name, a missing or empty name or a multi-part geometry is rejected.", "quantifier": "every feature collection", "why_tests_cant": "All feature lists.", "anchors": ["fm2prof/polygon_file.py::MultiPolygon._polygons_from_geojson_data", "fm2prof/polygon_file.py::MultiPolygon.polygons"]}
{"id": "C34", "title": "Classification cache is transparent", "statement": "A classification read from the cache is the one that would be computed from the present inputs.", "quantifier": "every history of runs with changes of map file, polygons and defaults in between", "why_tests_cant": "A statement over histories of runs on a shared directory.", "anchors": ["fm2prof/polygon_file.py::MultiPolygon.get_gridpoints_in_polygon", "fm2prof/polygon_file.py::MultiPolygon._load_cache", "fm2prof/polygon_file.py::MultiPolygon._write_cache"]}
{"id": "C35", "title": "Reading cross-section locations", "statement": "Reading a location file gives for every data line one entry in each of the five result columns, in file order, with a header line skipped; legacy lines get an id made of branch and rounded chainage.", "quantifier": "every file made of well-formed lines", "why_tests_cant": "All mixtures of line formats.", "anchors": ["fm2prof/data_import.py::ImportInputFiles.css_file"]}
{"id": "C36", "title": "Location files written by the tool are read back", "statement": "A cross-section location file written by the generator is read by the importer as the same list of ids, coordinates, lengths, branches and chainages.", "quantifier": "every list of locations whose text fields contain no separator", "why_tests_cant": "All lists of locations; two independent pieces of code must agree on the format.", "anchors": ["fm2prof/utils.py::GenerateCrossSectionLocationFile._write_cross_section_location_file", "fm2prof/data_import.py::ImportInputFiles.css_file"]}
{"id": "C37", "title": "Cross-section list is a transposition", "statement": "The list of cross-sections made from the column table has one entry per location and entry i holds the i-th value of every column.", "quantifier": "every column table with equally long columns", "why_tests_cant": "Any number of columns and rows.", "anchors": ["fm2prof/data_import.py::FmModelData.get_ordered_css_list"]}
{"id": "C38", "title": "Selecting 2D data for a cross-section", "statement": "The data selected for a cross-section contains exactly the faces and edges assigned to it, in grid order, all face series row by row for the same faces and all edge series for the same edges; water levels are missing where the depth is zero.", "quantifier": "every grid and assignment", "why_tests_cant": "All masks.", "anchors": ["fm2prof/data_import.py::FmModelData.get_selection"]}
{"id": "C39", "title": "Configuration behaves as a case-insensitive map", "statement": "After any sequence of setting parameters, reading a known parameter in any capitalisation returns the last value set for it or the default; setting one never changes another; unknown names give an error or nothing and change nothing.", "quantifier": "every history of set operations and every key", "why_tests_cant": "Histories of unbounded length.", "anchors": ["fm2prof/ini_file.py::IniFile.set_parameter", "fm2prof/ini_file.py::IniFile.get_parameter", "fm2prof/ini_file.py::IniFile._set_config_value", "fm2prof/ini_file.py::IniFile._get_from_configuration"]}
{"id": "C40", "title": "Loading a configuration file", "statement": "After loading a file every parameter has a value: the file's value when it is present and castable to the parameter's type, otherwise the default; keys not in the template have no effect; the order of keys in the file has no effect; keys are matched case-insensitively.", "quantifier": "every configuration file content", "why_tests_cant": "All sets of keys and values.", "anchors": ["fm2prof/ini_file.py::IniFile._extract_parameters", "fm2prof/ini_file.py::IniFile._read_inifile"]}
{"id": "C41", "title": "Loading is idempotent", "statement": "Loading the same file twice gives the same configuration as loading it once (the tool itself reads the file twice).", "quantifier": "every file content and every prior configuration", "why_tests_cant": "History property.", "anchors": ["fm2prof/ini_file.py::IniFile.load_configuration_from_file"]}
{"id": "C42", "title": "A printed configuration reads back", "statement": "Printing the configuration and loading the printed text restores every parameter whose value prints without line breaks and separators.", "quantifier": "every configuration", "why_tests_cant": "All values of all types.", "anchors": ["fm2prof/ini_file.py::IniFile.print_configuration", "fm2prof/ini_file.py::IniFile._read_inifile"]}
{"id": "C43", "title": "Exported definitions read back", "statement": "The cross-section definitions exported are read back by the visualiser as the same ids, levels, widths, section widths and summerdike values, in order, up to the printed precision.", "quantifier": "every list of cross-sections whose names have no equals sign or line break and no blanks around them", "why_tests_cant": "Any number of profiles and points; writer and parser are independent.", "anchors": ["fm2prof/export.py::Export1DModelData._write_geometry_fm1d", "fm2prof/utils.py::VisualiseOutput.parse_cross_section_definition_file"]}
{"id": "C44", "title": "Exported volumes read back", "statement": "For every cross-section name exactly its own volume rows are read back from the volume table, in order.", "quantifier": "every list of cross-sections with distinct names without commas or line breaks, other than the word id that heads the name column", "why_tests_cant": "Any number of rows.", "anchors": ["fm2prof/export.py::Export1DModelData.export_volumes", "fm2prof/utils.py::VisualiseOutput.get_volume_info_for_css"]}
{"id": "C45", "title": "SOBEK 3 levels are unique", "statement": "In the exported SOBEK 3 profile file the printed levels of a profile are strictly increasing even when the profile's levels are only non-decreasing.", "quantifier": "every non-decreasing list of levels of any length up to the printed precision", "why_tests_cant": "All level lists.", "anchors": ["fm2prof/export.py::Export1DModelData._write_geometry_sobek3"]}
{"id": "C46", "title": "D-Flow 1D levels stay increasing in print", "statement": "In the exported D-Flow 1D definitions the printed levels of a profile are strictly increasing.", "quantifier": "every strictly increasing list of levels", "why_tests_cant": "Rounding collapses only particular gaps.", "anchors": ["fm2prof/export.py::Export1DModelData._write_geometry_fm1d"]}
{"id": "C47", "title": "Locations and definitions match", "statement": "The exported location file and definition file contain one block per cross-section in the same order; every location refers to a definition id and every definition is referred to.", "quantifier": "every list of cross-sections", "why_tests_cant": "Any list.", "anchors": ["fm2prof/export.py::Export1DModelData.export_cross_section_locations", "fm2prof/export.py::Export1DModelData._write_geometry_fm1d"]}
{"id": "C48", "title": "SOBEK 3 summerdike columns", "statement": "The exported SOBEK 3 metadata row holds under each summerdike column the value of that name and as many fields as the header has columns.", "quantifier": "every cross-section", "why_tests_cant": "Column mix-ups show only when the values differ.", "anchors": ["fm2prof/export.py::Export1DModelData._write_geometry_sobek3"]}
{"id": "C49", "title": "Existing results are never overwritten without permission", "statement": "A run without the overwrite option on a project whose output directory contains any of the result files leaves every file as it was and reports failure; with the overwrite option it proceeds.", "quantifier": "every state of the output directory", "why_tests_cant": "All subsets of existing files.", "anchors": ["fm2prof/fm2prof_runner.py::Fm2ProfRunner.run", "fm2prof/fm2prof_runner.py::Fm2ProfRunner._output_exists", "fm2prof/export.py::OutputFiles"]}
{"id": "C50", "title": "A completed run protects its output", "statement": "After a run that exported at least one file, a second run of the same project without overwrite is refused and changes nothing, however often it is repeated.", "quantifier": "every history of runs", "why_tests_cant": "History property.", "anchors": ["fm2prof/fm2prof_runner.py::Fm2ProfRunner.run", "fm2prof/fm2prof_runner.py::Fm2ProfRunner._write_output"]}
{"id": "C51", "title": "Exporters fail independently", "statement": "If writing one result file fails, all other result files are still written exactly as they would be without the failure, and the run does not raise from exporting.", "quantifier": "every subset of failing writers", "why_tests_cant": "All failure subsets.", "anchors": ["fm2prof/fm2prof_runner.py::Fm2ProfRunner._write_output"]}
{"id": "C52", "title": "Cross-section list of a run", "statement": "A run attempts each requested cross-section once, in order; those with fewer than ten faces are left out and all others appear in the result in the requested order.", "quantifier": "every list of locations, every selection and every outcome per cross-section", "why_tests_cant": "All outcome patterns.", "anchors": ["fm2prof/fm2prof_runner.py::Fm2ProfRunner._generate_cross_section_list", "fm2prof/fm2prof_runner.py::Fm2ProfRunner._get_css_range", "fm2prof/fm2prof_runner.py::Fm2ProfRunner._generate_cross_section"]}
{"id": "C53", "title": "A run reports failure instead of raising", "statement": "Calling run never raises: it returns true when output was written and false otherwise.", "quantifier": "every failure point", "why_tests_cant": "All failure points.", "anchors": ["fm2prof/fm2prof_runner.py::Fm2ProfRunner.run"]}
{"id": "C54", "title": "Map skipping is validated", "statement": "A run is stopped before building profiles when the number of skipped maps is not smaller than the number of maps; so at least one map is always available.", "quantifier": "every number of maps and every setting", "why_tests_cant": "All pairs.", "anchors": ["fm2prof/fm2prof_runner.py::Fm2ProfRunner._validate_config_after_initalization"]}
{"id": "C55", "title": "Control lengths add up to the branch length", "statement": "For each branch of a network the lengths assigned to its cross-sections by the location generator add up to the distance between first and last grid point, and every length is half the distance between neighbours.", "quantifier": "every strictly increasing list of offsets of any length at least two", "why_tests_cant": "Any number of points.", "anchors": ["fm2prof/utils.py::GenerateCrossSectionLocationFile._parse_network_definition_file"]}
{"id": "C56", "title": "Branch rules conserve length", "statement": "Every branch rule removes the points it names and hands their length to the neighbours, so that the lengths still add up to the branch length and columns stay aligned.", "quantifier": "every list of points and each rule", "why_tests_cant": "Small branches behave differently; tests use one network.", "anchors": ["fm2prof/utils.py::GenerateCrossSectionLocationFile._apply_branch_rules"]}
{"id": "C57", "title": "Branch exceptions conserve length", "statement": "Removing excepted cross-sections from a branch hands half their length to each neighbour (all of it at an end), so the sum is unchanged; all other points stay in order.", "quantifier": "every list of points and every list of excepted ids", "why_tests_cant": "Consecutive and repeated exceptions.", "anchors": ["fm2prof/utils.py::GenerateCrossSectionLocationFile._apply_branch_exceptions"]}
{"id": "C58", "title": "Time window", "statement": "A series returned by the comparison tool contains exactly the rows with a time between start and stop time inclusive, in order; a start not before the stop, a start at or after the last record or a stop at or before the first record is an error.", "quantifier": "every time-stamped series, every pair of start and stop times, set or unset, every sequence of datasets read through one reader", "why_tests_cant": "The window of an unset bound is fixed by the first dataset read, so the result depends on history.", "anchors": ["fm2prof/utils.py::ModelOutputReader._apply_startstop_time"]}
{"id": "C59", "title": "1D-2D station mapping", "statement": "Every 1D station gets one row in the mapping, in order: the first 2D station whose name starts with the first nine characters of the 1D name, or an empty name exactly when there is none; a station whose name also exists in 2D and is at most nine characters is mapped to a name it prefixes.", "quantifier": "every list of 1D and 2D station names", "why_tests_cant": "All name sets.", "anchors": ["fm2prof/utils.py::ModelOutputReader._get_1d2d_map"]}
{"id": "C60", "title": "Digitised statistics", "statement": "Averages per discharge bin are averages of exactly the water levels whose discharge falls in the bin, each value is used at most once, and the row labelled with bin value b averages discharges from b upwards to the next bin.", "quantifier": "every list of values and every increasing list of bins", "why_tests_cant": "All lists and bin edges.", "anchors": ["fm2prof/utils.py::Compare1D2D._digitize_data"]}
{"id": "C61", "title": "Station labels do not collide", "statement": "Along a plotted route, labelled measuring stations are a subsequence of the measuring stations, consecutive labels are at least five kilometres apart, and a measuring station is left out only if it is closer than that to the last labelled one.", "quantifier": "every list of stations with positions (kilometres) that are not negative", "why_tests_cant": "Greedy selection over arbitrary lists.", "anchors": ["fm2prof/utils.py::Compare1D2D._lmw_func"]}
{"id": "C62", "title": "Plotted summerdike crest is clamped to the profile", "statement": "The crest level drawn for a cross-section lies between its lowest and highest level, equals the exported crest exactly when that lies in the range, and is marked cropped otherwise.", "quantifier": "every definition with at least one level and every crest level", "why_tests_cant": "All values.", "anchors": ["fm2prof/utils.py::VisualiseOutput._get_sd_plot_info"]}
{"id": "C63", "title": "Time lookup", "statement": "The index returned for a date in an increasing time series is the first record at or after the date, or the last record when there is none; it is always a valid index of a non-empty series.", "quantifier": "every non-empty series and every date", "why_tests_cant": "All series.", "anchors": ["fm2prof/utils.py::Compare1D2D._get_nearest_time"]}
{"id": "C64", "title": "Log summary counts", "statement": "The number of warnings and errors reported at the end of a run equals the number of warnings and errors logged during it.", "quantifier": "every history of log messages", "why_tests_cant": "History property.", "anchors": ["fm2prof/common.py::ElapsedFormatter.format", "fm2prof/fm2prof_runner.py::Fm2ProfRunner._print_log_report"]}
{"id": "C65", "title": "Centre level starts at the bed", "statement": "Where the location of a cross-section is dry, its level is taken to be the lowest bed level seen there over all maps, and wherever it is wet the level of the nearest 2D cell is used unchanged; so the level series of a cross-section has no missing values unless the location is dry at every map, and starts at or above that bed level.", "quantifier": "every depth and level history at the nearest cell", "why_tests_cant": "All patterns of dry maps.", "anchors": ["fm2prof/nearest_neighbour.py::get_centre_values", "fm2prof/data_import.py::FmModelData.get_selection"]}
{"id": "C66", "title": "2D volumes count wet connected cells only", "statement": "The wet area at a map is the sum of the areas of the wet cells that are not a resting lake, the total volume the sum of area times corrected depth over the same cells; with non-negative areas and depths the total area is at least the area of any subset of those cells.", "quantifier": "every control volume and every map", "why_tests_cant": "Sums over any number of cells with missing values.", "anchors": ["fm2prof/cross_section.py::CrossSection.build_geometry"]}
{"id": "C67", "title": "Flow volume never exceeds total volume in 2D", "statement": "At every map the flow area is at most the wet area and the flow volume at most the total volume of the control volume.", "quantifier": "every control volume and every map", "why_tests_cant": "The violating case needs a fast flowing cell whose depth stays constant during the lake period.", "anchors": ["fm2prof/cross_section.py::CrossSection.build_geometry", "fm2prof/cross_section.py::CrossSection._identify_lakes", "fm2prof/cross_section.py::CrossSection._distinguish_conveyance_from_storage"]}
{"id": "C68", "title": "Mask points are complete", "statement": "The point file of a cross-section contains one point per face (and one per edge) with its coordinates, cross-section, region and section, in grid order; an invalid point is left out without affecting the others.", "quantifier": "every control volume", "why_tests_cant": "Any number of points and any pattern of invalid ones.", "anchors": ["fm2prof/cross_section.py::CrossSection.set_face_output_list", "fm2prof/cross_section.py::CrossSection.set_edge_output_list", "fm2prof/fm2prof_runner.py::Fm2ProfRunner._generate_geojson_output"]}
{"id": "C69", "title": "Mask files accept only the known extension", "statement": "Reading or writing a point file with a path that does not end in .json or .geojson is an error and writes nothing; written points are read back in order.", "quantifier": "every path and every list of points", "why_tests_cant": "All paths and lists.", "anchors": ["fm2prof/mask_output_file.py::read_mask_output_file", "fm2prof/mask_output_file.py::write_mask_output_file", "fm2prof/mask_output_file.py::validate_extension"]}
{"id": "C70", "title": "Route stations are sorted", "statement": "The stations along a route are exactly the stations of the branches on the route that have a river kilometre, sorted by river kilometre, names and kilometres aligned.", "quantifier": "every list of station names and every route", "why_tests_cant": "All names.", "anchors": ["fm2prof/utils.py::Compare1D2D.get_route", "fm2prof/utils.py::Compare1D2D._names_to_rkms"]}
{"id": "C71", "title": "Volume table lookup of the lowest simulated level", "statement": "The lowest simulated level of a cross-section read from the volume table is the level of the first row with a 2D volume.", "quantifier": "every volume table", "why_tests_cant": "All patterns of missing values.", "anchors": ["fm2prof/utils.py::VisualiseOutput._get_lowest_water_level_in_2d"]}
{"id": "C72", "title": "Cross-section names are parsed back to branch and chainage", "statement": "A name made of a branch, an underscore and a number is split into exactly that branch and number even when the branch contains underscores.", "quantifier": "every branch name and number", "why_tests_cant": "All names.", "anchors": ["fm2prof/utils.py::VisualiseOutput._parse_cssname"]}
{"id": "C73", "title": "2D volumes are never negative", "statement": "With non-negative cell areas and depths, every 2D volume of a built profile is non-negative.", "quantifier": "every control volume for which the build succeeds", "why_tests_cant": "All depth histories.", "anchors": ["fm2prof/cross_section.py::CrossSection.build_geometry"]}
{"id": "C74", "title": "Roughness at a level is the 2D roughness at that level", "statement": "The roughness table of a section, read at a water level that the 2D model reached in exactly one map, gives the roughness of the 2D model at that map, also when the water level does not rise in every map.", "quantifier": "every sequence of water levels and link roughness values", "why_tests_cant": "Holds for rising water only; a falling limb anywhere in the history breaks it.", "anchors": ["fm2prof/cross_section.py::CrossSection._build_roughness_tables", "fm2prof/common.py::FrictionTable.interpolate"]}
{"id": "C75", "title": "Harmonised roughness tables are not empty", "statement": "Harmonising friction tables that have at least one level leaves every table with at least one level.", "quantifier": "every list of cross-sections with non-empty tables", "why_tests_cant": "Fails exactly when all tables of a section together have a single level.", "anchors": ["fm2prof/cross_section.py::CrossSectionHelpers._interpolate_friction_across_cross_sections"]}
{"id": "C76", "title": "Each branch is read with its own grid points", "statement": "The locations generated from a network are those of its branches in order of the file; the ids, coordinates and offsets of a location all belong to the same grid point of the branch it is listed under.", "quantifier": "every network definition file and every set of branch rules", "why_tests_cant": "Needs files with any number of branches and sections of any layout.", "anchors": ["fm2prof/utils.py::GenerateCrossSectionLocationFile._parse_network_definition_file"]}
{"id": "C77", "title": "End points are moved one metre inwards", "statement": "The first and the last location of a branch are put one metre from the ends of the branch, on the line through its grid points; all other grid points stay where they are.", "quantifier": "every branch with rising offsets", "why_tests_cant": "All branch geometries.", "anchors": ["fm2prof/utils.py::GenerateCrossSectionLocationFile._parse_network_definition_file"]}
{"id": "C78", "title": "Branch rule files", "statement": "A branch rule file is accepted exactly when each of its lines names a branch and a rule; the rule and the exceptions that apply to a branch are those of the last line that names it.", "quantifier": "every text", "why_tests_cant": "All texts.", "anchors": ["fm2prof/utils.py::GenerateCrossSectionLocationFile._parse_branch_rule_file"]}
{"id": "C79", "title": "Exported roughness reads back", "statement": "The exported roughness of a cross-section, looked up by its name, is read back as the levels and roughness values of its table, up to the printed precision.", "quantifier": "every list of cross-sections named after their branch and chainage", "why_tests_cant": "Writer and reader are independent; any number of branches, levels and spellings.", "anchors": ["fm2prof/export.py::Export1DModelData._write_roughness_fm1d", "fm2prof/utils.py::VisualiseOutput.get_roughness_info_for_css"]}
{"id": "C80", "title": "SOBEK 3 roughness rows", "statement": "The exported SOBEK 3 roughness file has, section by section, one row for each cross-section with the section and each level of its table, with branch, chainage, section type, level and roughness; it is refused exactly when a cross-section has an unknown section.", "quantifier": "every list of cross-sections", "why_tests_cant": "Any number of sections, cross-sections and levels.", "anchors": ["fm2prof/export.py::Export1DModelData._write_roughness_sobek3"]}
{"id": "C81", "title": "Exported definitions are rectangular", "statement": "Every exported definition declares as many levels as it lists, with a flow width and a total width for each.", "quantifier": "every list of cross-sections", "why_tests_cant": "Any number of levels.", "anchors": ["fm2prof/export.py::Export1DModelData._write_geometry_fm1d"]}
{"id": "C82", "title": "SOBEK 3 profile rows", "statement": "The exported SOBEK 3 profile file has one geometry row per level of a cross-section, in order, holding the level (raised by a hundred-thousandth per row), total width and flow width of that level.", "quantifier": "every list of cross-sections with distinct names", "why_tests_cant": "Any number of levels.", "anchors": ["fm2prof/export.py::Export1DModelData._write_geometry_sobek3"]}
{"id": "C83", "title": "Test format rows", "statement": "The exported test file lists chainage, level, total width and flow width of every level of every cross-section in order, and reading the numbers gives them back exactly.", "quantifier": "every list of cross-sections", "why_tests_cant": "Any number of levels.", "anchors": ["fm2prof/export.py::Export1DModelData._write_geometry_testformat"]}
{"id": "C84", "title": "A rejected configuration file changes nothing", "statement": "A configuration file that is rejected with an error leaves the configuration as it was.", "quantifier": "every configuration file content and every prior configuration", "why_tests_cant": "All texts and all states.", "anchors": ["fm2prof/ini_file.py::IniFile.load_configuration_from_file", "fm2prof/ini_file.py::IniFile._read_inifile"]}
{"id": "C85", "title": "Input files of a printed configuration", "statement": "Printing a configuration and loading the printed text from the same place restores every input file that exists.", "quantifier": "every configuration and every directory of the configuration file", "why_tests_cant": "All paths and all disks.", "anchors": ["fm2prof/ini_file.py::IniFile.print_configuration", "fm2prof/ini_file.py::IniFile._extract_input_files"]}
{"id": "C86", "title": "The output directory exists", "statement": "After the output directory has been set without an error, and after the project has said that it has an output directory, the directory it names exists.", "quantifier": "every path, every directory of the configuration file, every disk", "why_tests_cant": "All paths and all disks.", "anchors": ["fm2prof/ini_file.py::IniFile.set_output_directory", "fm2prof/ini_file.py::IniFile.get_output_directory", "fm2prof/ini_file.py::IniFile.has_output_directory"]}
{"id": "C87", "title": "Results after overwriting come from the last run", "statement": "After a run with the overwrite option that reports success, every result file in the output directory was written by that run.", "quantifier": "all projects, all contents of the output directory before the run", "why_tests_cant": "All histories of runs on one directory.", "anchors": ["fm2prof/fm2prof_runner.py::Fm2ProfRunner.run", "fm2prof/fm2prof_runner.py::Fm2ProfRunner._write_output"]}
{"id": "C88", "title": "Stations of the same name are compared", "statement": "A station of the 1D model whose name is also the name of a station of the 2D model is compared with that station.", "quantifier": "every list of 1D and 2D station names", "why_tests_cant": "All combinations of names.", "anchors": ["fm2prof/utils.py::ModelOutputReader._get_1d2d_map"]}
{"id": "C89", "title": "Moments along a route", "statement": "A longitudinal figure over time can be made of every series: its moments start at the first record, are equally far apart, lie before the last record and are between six and eleven in number.", "quantifier": "series of every length", "why_tests_cant": "All lengths of series.", "anchors": ["fm2prof/utils.py::Compare1D2D._time_func"]}
{"id": "C90", "title": "Every station along a route is drawn", "statement": "The data along a route contain every station of the route, at its kilometre, in order.", "quantifier": "all routes, all series", "why_tests_cant": "All tables of water levels.", "anchors": ["fm2prof/utils.py::Compare1D2D.get_data_along_route"]}
{"id": "C91", "title": "Discharges of the rating-curve figure", "statement": "The discharges chosen for the rating-curve figure are at most as many as asked for, strictly increasing, positive and in the table, each the first at which the level concerned is reached; with too little data none are chosen.", "quantifier": "all tables of digitised levels", "why_tests_cant": "All tables.", "anchors": ["fm2prof/utils.py::Compare1D2D._iter_discharge_steps"]}
{"id": "C92", "title": "Error statistics", "statement": "Bias and mean absolute error are the mean of the differences and of their absolute values over exactly the times at which both models have a level; the bias is never larger in size than the mean absolute error; a constant difference gives that bias, its size and no deviation; the mean of the n highest levels is at least the mean of any n levels, and decreases with n.", "quantifier": "all pairs of series, with missing values and different times", "why_tests_cant": "All series.", "anchors": ["fm2prof/utils.py::Compare1D2D._compute_statistics", "fm2prof/utils.py::Compare1D2D._apply_stat"]}
{"id": "C93", "title": "Log files are complete", "statement": "After a log file is added, every message that is logged is written to it, in the order of logging, the messages of the introduction as such and the start of a task as a header.", "quantifier": "every history of projects, log files and messages", "why_tests_cant": "All histories.", "anchors": ["fm2prof/common.py::FM2ProfBase.set_logger_message", "fm2prof/common.py::FM2ProfBase.set_logfile", "fm2prof/common.py::ElapsedFileFormatter"]}
{"id": "C94", "title": "Log files belong to one project", "statement": "The log file of a project contains messages of that project only.", "quantifier": "every history of projects, log files and messages", "why_tests_cant": "All histories.", "anchors": ["fm2prof/common.py::FM2ProfBase.create_logger", "fm2prof/common.py::FM2ProfBase.set_logfile"]}
{"id": "C95", "title": "Lakes are marked in the point file", "statement": "A face that is a lake is marked as a lake in the point file.", "quantifier": "every grid and every series of water depths", "why_tests_cant": "All grids.", "anchors": ["fm2prof/cross_section.py::CrossSection.set_face_output_list", "fm2prof/data_import.py::FMDataImporter.import_dflow2d"]}
{"id": "C96", "title": "Envelopes", "statement": "The envelope file has one polygon for every cross-section that has an envelope, in order, with corners among its face points; a cross-section without envelope does not affect the others.", "quantifier": "every list of cross-sections", "why_tests_cant": "All lists and all patterns of failure.", "anchors": ["fm2prof/fm2prof_runner.py::Fm2ProfRunner._export_envelope"]}
{"id": "C97", "title": "The files of a run hold valid profiles", "statement": "After a successful run the definition file can be read and has one profile for each requested location with a name and ten or more faces, in the order requested. Each profile is, up to the printed precision, valid: levels and widths increase, flow width is at most total width, no width is below the minimum, the number of points is between two and the maximum. The location file has one block for each of them.", "quantifier": "every map file, list of locations, configuration, selection and previous contents of the directory", "why_tests_cant": "All input data.", "anchors": ["fm2prof/fm2prof_runner.py::Fm2ProfRunner.run", "fm2prof/fm2prof_runner.py::Fm2ProfRunner._generate_cross_section_list", "fm2prof/export.py::Export1DModelData.export_geometry"]}
{"id": "C98", "title": "The roughness files of a run", "statement": "After a successful run there is a roughness file for each section that some cross-section has edges in. It has one block for each requested location with edges in the section, with its branch, its chainage and its mean roughness at the levels of the file.", "quantifier": "every map file, list of locations, set of section polygons, configuration and selection", "why_tests_cant": "All input data.", "anchors": ["fm2prof/fm2prof_runner.py::Fm2ProfRunner._write_output", "fm2prof/cross_section.py::CrossSection.assign_roughness", "fm2prof/export.py::Export1DModelData.export_roughness"]}
{"id": "C99", "title": "The volume file of a run", "statement": "After a successful run the volumes of each cross-section can be read from the volume file.", "quantifier": "every map file, list of locations, configuration and selection", "why_tests_cant": "All input data.", "anchors": ["fm2prof/fm2prof_runner.py::Fm2ProfRunner._write_output", "fm2prof/export.py::Export1DModelData.export_volumes"]}
{"id": "C100", "title": "No part of the grid is lost", "statement": "Without regions the control volumes of all cross-sections together are all faces of the 2D grid, each once, so areas and volumes add up to those of the grid.", "quantifier": "every grid and every list of locations with distinct names", "why_tests_cant": "All grids.", "anchors": ["fm2prof/fm2prof_runner.py::Fm2ProfRunner._set_fm_model_data", "fm2prof/data_import.py::FmModelData.get_selection"]}
{"id": "C101", "title": "Selecting cross-sections", "statement": "What is in the definition file for a location does not depend on which other locations are selected, on the order, or on what was in the directory before.", "quantifier": "every input, every pair of selections and previous contents of the directory", "why_tests_cant": "All selections.", "anchors": ["fm2prof/fm2prof_runner.py::Fm2ProfRunner._generate_cross_section_list", "fm2prof/fm2prof_runner.py::Fm2ProfRunner._get_css_range"]}
{"id": "C102", "title": "Skipping maps", "statement": "A run that skips the first maps gives the same result and the same files as a run on a map file that does not have these maps.", "quantifier": "every input and every number of maps to skip", "why_tests_cant": "All inputs.", "anchors": ["fm2prof/cross_section.py::CrossSection.build_geometry", "fm2prof/cross_section.py::CrossSection._build_roughness_tables"]}
{"id": "C103", "title": "A cross-section depends on its own data", "statement": "What is in the definition file for a location depends only on the faces and edges assigned to it: changing the rest of the 2D model does not change it.", "quantifier": "every pair of inputs with the same data for a location", "why_tests_cant": "All pairs of inputs.", "anchors": ["fm2prof/fm2prof_runner.py::Fm2ProfRunner._create_new_cross_section", "fm2prof/data_import.py::FmModelData.get_selection"]}
{"id": "C104", "title": "The reference level does not matter", "statement": "If all bed and water levels of the 2D model are counted from another reference level, the profile has the same widths at levels shifted by the same amount, the section widths, extra areas and volumes are the same, and the crest level, the base level of the floodplain and the levels of the roughness tables are shifted.", "quantifier": "every 2D model, location, configuration and shift", "why_tests_cant": "All 2D models and all shifts.", "anchors": ["fm2prof/cross_section.py::CrossSection.build_geometry", "fm2prof/cross_section.py::CrossSection.calculate_correction", "fm2prof/cross_section.py::CrossSection._compute_floodplain_base", "fm2prof/cross_section.py::CrossSectionHelpers.interpolate_friction_across_cross_sections"]}
{"id": "C105", "title": "A profile does not depend on the length it stands for", "statement": "If all faces are a number of times as large and the cross-section is as many times as long, the profile, crest level, extra areas, section widths and roughness are the same and the volumes are as many times as large.", "quantifier": "every 2D model, location, configuration and positive factor", "why_tests_cant": "All 2D models and all factors.", "anchors": ["fm2prof/cross_section.py::CrossSection.build_geometry", "fm2prof/cross_section.py::CrossSection.calculate_correction", "fm2prof/cross_section.py::CrossSection._compute_section_widths"]}
{"id": "C106", "title": "The numbering of the grid does not matter", "statement": "If the faces and edges of the 2D model are numbered in another way, the cross-section is the same, and so are the outcome and all result files of a whole run.", "quantifier": "every 2D model, every permutation of its faces and edges, every location and configuration", "why_tests_cant": "All permutations.", "anchors": ["fm2prof/cross_section.py::CrossSection.build_geometry", "fm2prof/cross_section.py::CrossSection._distinguish_conveyance_from_storage", "fm2prof/data_import.py::FmModelData.get_selection"]}
{"id": "C107", "title": "Faces that never get wet do not matter for the profile", "statement": "Adding a face that is dry at all maps does not change the profile, crest level, extra areas and volumes, and roughness of a cross-section.", "quantifier": "every 2D model, every face that is always dry, every location and configuration", "why_tests_cant": "All 2D models.", "anchors": ["fm2prof/cross_section.py::CrossSection.build_geometry", "fm2prof/cross_section.py::CrossSection._distinguish_conveyance_from_storage"]}
{"id": "C108", "title": "The axes of the map do not matter", "statement": "If the axes are turned and moved, so that positions and components of velocities change accordingly, the cross-section is the same, and so are the outcome and all result files of a whole run, as long as no face or edge has two nearest cross-sections and no cross-section two nearest faces.", "quantifier": "every 2D model, rotation, shift, location and configuration", "why_tests_cant": "All rotations and shifts.", "anchors": ["fm2prof/data_import.py::FmModelData.get_selection", "fm2prof/cross_section.py::CrossSection.build_geometry", "fm2prof/nearest_neighbour.py::get_centre_values"]}
{"id": "C109", "title": "Reading the results of a comparison again gives the same tables", "statement": "After results of a 1D and a 2D model have been read into an output directory, reading them again gives the same stations, times and values, and changes no file.", "quantifier": "every pair of results, offset and directory without tables", "why_tests_cant": "All results; the second reading takes another way, through csv files.", "anchors": ["fm2prof/utils.py::ModelOutputReader.read_all_data", "fm2prof/utils.py::ModelOutputReader.load_flow1d_data", "fm2prof/utils.py::ModelOutputReader.load_flow2d_data"]}
{"id": "C110", "title": "A comparison shows the results it was given", "statement": "The tables of a comparison hold the results of the files and the time offset that were given to it.", "quantifier": "every history of readings in a directory, results and offsets", "why_tests_cant": "All histories of readings.", "anchors": ["fm2prof/utils.py::ModelOutputReader.load_flow1d_data", "fm2prof/utils.py::ModelOutputReader._import_1d_observations"]}
{"id": "C111", "title": "An interrupted reading can be repeated", "statement": "If the program is stopped while it reads results, running it again gives the tables and files of a run that was not stopped, or an error.", "quantifier": "every pair of results and every point at which the program is stopped", "why_tests_cant": "All crash points.", "anchors": ["fm2prof/utils.py::ModelOutputReader.read_all_data", "fm2prof/utils.py::ModelOutputReader._import_2d_observations", "fm2prof/utils.py::ModelOutputReader._get_1d2d_map"]}
{"id": "C112", "title": "Times of results are read as they are meant", "statement": "The times of results are the moment in the units of the time variable plus the number of seconds; results with other units are not taken for seconds.", "quantifier": "every text of the units and every list of seconds", "why_tests_cant": "All texts.", "anchors": ["fm2prof/utils.py::ModelOutputReader._parse_time"]}
{"id": "C113", "title": "2D results appear at the right 1D stations", "statement": "The 2D tables have exactly the 1D stations in their order; each has the values of the first 2D station whose name starts with its first nine characters, at the times of the 2D results, and no values when there is no such station.", "quantifier": "every pair of results", "why_tests_cant": "All names and values.", "anchors": ["fm2prof/utils.py::ModelOutputReader._import_2d_observations", "fm2prof/utils.py::ModelOutputReader._get_1d2d_map", "fm2prof/utils.py::ModelOutputReader.load_flow2d_data"]}
{"id": "C114", "title": "Each path given to a comparison is used", "statement": "A comparison reads the 1D results and the 2D results that were given to it; a path that is left out is not needed when the tables are there.", "quantifier": "every combination of given and omitted paths, results and directories", "why_tests_cant": "All combinations with all directories.", "anchors": ["fm2prof/utils.py::Compare1D2D.__init__"]}
{"id": "C115", "title": "Rating curves hold the mean levels per discharge", "statement": "When a comparison is opened, the rating curve of each station of each model holds, for each discharge interval of 200 m3/s, the mean of the levels of that model at discharges in that interval, also when the output directory was used before.", "quantifier": "every pair of results and every history of comparisons in a directory", "why_tests_cant": "All results and all histories of a directory.", "anchors": ["fm2prof/utils.py::Compare1D2D.digitize_data", "fm2prof/utils.py::Compare1D2D._digitize_data", "fm2prof/utils.py::Compare1D2D.__init__"]}
{"id": "C116", "title": "Start and stop times apply to rating curves", "statement": "With a start and a stop time the rating curves of a comparison only use the records between these times.", "quantifier": "every pair of results and every start and stop time", "why_tests_cant": "All times and results.", "anchors": ["fm2prof/utils.py::Compare1D2D.digitize_data", "fm2prof/utils.py::Compare1D2D._digitize_data"]}
{"id": "C117", "title": "Statistics belong to the start and stop times in force", "statement": "The statistics shown for a station, or written to a file, are those a new comparison with the start and stop times set last would give; asking for statistics does not change the times.", "quantifier": "every sequence of setting times, showing stations and writing statistics", "why_tests_cant": "All histories of a session.", "anchors": ["fm2prof/utils.py::Compare1D2D._compute_statistics", "fm2prof/utils.py::Compare1D2D._get_statistics", "fm2prof/utils.py::Compare1D2D.statistics_to_file"]}
{"id": "C118", "title": "Statistics of a station are computed from its own records", "statement": "The table of statistics has a row for every station. The row holds its bias, deviation and mean absolute error over the times with a level in both models, and the means of its last and highest levels, over the records from the start to the stop time.", "quantifier": "every pair of tables of levels and every start and stop time", "why_tests_cant": "All tables and times.", "anchors": ["fm2prof/utils.py::Compare1D2D._compute_statistics", "fm2prof/utils.py::Compare1D2D._apply_stat"]}
{"id": "C119", "title": "Statistics are written to a table and a summary", "statement": "Writing statistics makes two files, a table with the documented columns and a line for each station, and a summary, and changes no other file.", "quantifier": "every session, directory and file path", "why_tests_cant": "All paths and contents.", "anchors": ["fm2prof/utils.py::Compare1D2D.statistics_to_file"]}
{"id": "C120", "title": "The summary of statistics has one line for each branch", "statement": "The summary has one line for each branch, in the order in which the branches occur, with the mean bias and the mean deviation over its stations and over its measuring stations.", "quantifier": "every table of statistics", "why_tests_cant": "All tables.", "anchors": ["fm2prof/utils.py::Compare1D2D.statistics_to_file"]}
{"id": "C121", "title": "A measuring station is one everywhere", "statement": "A station is a measuring station in the statistics exactly when it is one in the figures along a route.", "quantifier": "every station name and route", "why_tests_cant": "All names.", "anchors": ["fm2prof/utils.py::Compare1D2D._compute_statistics", "fm2prof/utils.py::Compare1D2D.get_route"]}
{"id": "C122", "title": "A created project is the one that is checked and run", "statement": "After `fm2prof create NAME`, the commands `check NAME` and `run NAME` work with the content of the configuration file that was made, as edited by the user; unedited it gives the defaults.", "quantifier": "every name, directory, file content and file system", "why_tests_cant": "All names and contents.", "anchors": ["fm2prof/cli.py::cli_create_new_project", "fm2prof/cli.py::cli_check_project", "fm2prof/cli.py::cli_load_project", "fm2prof/fm2prof_runner.py::Fm2ProfRunner.load_configuration"]}
{"id": "C123", "title": "Creating a project only adds a configuration file", "statement": "`fm2prof create NAME` makes the file NAME.ini and changes nothing else; in particular no existing file is lost, and no other command changes configuration files.", "quantifier": "every sequence of commands", "why_tests_cant": "All histories of commands.", "anchors": ["fm2prof/cli.py::cli_create_new_project"]}
{"id": "C124", "title": "A project that does not exist is an error", "statement": "Checking or running a project without a configuration file fails, and leaves no files or directories behind.", "quantifier": "every name and file system", "why_tests_cant": "All names and file systems.", "anchors": ["fm2prof/cli.py::cli_check_project", "fm2prof/cli.py::cli_load_project", "fm2prof/fm2prof_runner.py::Fm2ProfRunner.load_configuration", "fm2prof/fm2prof_runner.py::Fm2ProfRunner.__init__"]}
{"id": "C125", "title": "The exit status tells whether a run succeeded", "statement": "`fm2prof run NAME` ends with status 0 exactly when the run was successful.", "quantifier": "every project, option and outcome of the computations", "why_tests_cant": "All projects and outcomes.", "anchors": ["fm2prof/cli.py::cli_load_project", "fm2prof/fm2prof_runner.py::Fm2ProfRunner.run"]}
{"id": "C126", "title": "A configuration file that cannot be used is reported", "statement": "Opening a project whose configuration file is not valid logs an error and gives a project that refuses to run, it does not raise an exception.", "quantifier": "every text of a configuration file", "why_tests_cant": "All texts.", "anchors": ["fm2prof/fm2prof_runner.py::Fm2ProfRunner.__init__", "fm2prof/fm2prof_runner.py::Fm2ProfRunner.load_configuration", "fm2prof/ini_file.py::IniFile._read_inifile"]}
{"id": "C127", "title": "Checking a project changes nothing", "statement": "`fm2prof check NAME` loads the project and reports errors; it changes no configuration file and nothing in the output directory.", "quantifier": "every project and file system", "why_tests_cant": "All projects and file systems.", "anchors": ["fm2prof/cli.py::cli_check_project", "fm2prof/fm2prof_runner.py::Fm2ProfRunner.__init__"]}
{"id": "C128", "title": "Results survive commands without --overwrite", "statement": "Once an output directory holds results, all its files except the log and the files of comparisons stay as they are through any sequence of commands, of any projects, none of which has the option --overwrite.", "quantifier": "every sequence of commands on any number of projects", "why_tests_cant": "All histories of commands.", "anchors": ["fm2prof/cli.py::cli_load_project", "fm2prof/fm2prof_runner.py::Fm2ProfRunner.run", "fm2prof/fm2prof_runner.py::Fm2ProfRunner._output_exists"]}
{"id": "C129", "title": "Widths stay within the control volume", "statement": "No width in the exported cross-section is larger than the area of the 2D cells assigned to it divided by its length, apart from the millimetre steps that keep widths increasing and the minimum width.", "quantifier": "every 2D result, configuration and set of locations with a successful run", "why_tests_cant": "All inputs.", "anchors": ["fm2prof/fm2prof_runner.py::Fm2ProfRunner.run", "fm2prof/cross_section.py::CrossSection.build_geometry", "fm2prof/cross_section.py::CrossSection.check_requirements"]}
{"id": "C130", "title": "Levels stay within the observed range and cover it", "statement": "Every level in the exported cross-section lies between the bed and the highest water level of the 2D cell nearest to its location; the lowest level is that bed and the highest is not below any of these water levels.", "quantifier": "every 2D result, configuration and set of locations with a successful run", "why_tests_cant": "All inputs.", "anchors": ["fm2prof/fm2prof_runner.py::Fm2ProfRunner.run", "fm2prof/cross_section.py::CrossSection.build_geometry", "fm2prof/cross_section.py::CrossSection.check_requirements", "fm2prof/nearest_neighbour.py::get_centre_values"]}
{"id": "C131", "title": "Exported roughness stays within the range of the 2D roughness", "statement": "Every roughness value in the exported files lies between the smallest and the largest roughness of the edges of the cross-section in that section when they are wet.", "quantifier": "every 2D result, configuration and set of locations with a successful run", "why_tests_cant": "All inputs.", "anchors": ["fm2prof/fm2prof_runner.py::Fm2ProfRunner.run", "fm2prof/cross_section.py::CrossSection.assign_roughness", "fm2prof/export.py::Export1DModelData"]}
{"id": "C132", "title": "The visualiser lists the cross-sections and branches of a run", "statement": "After a run the visualiser lists exactly the cross-sections of that run, in order, and as branches those that occur in their names, sorted and without repetition.", "quantifier": "every run and every set of names", "why_tests_cant": "All names.", "anchors": ["fm2prof/utils.py::VisualiseOutput.cross_sections", "fm2prof/utils.py::VisualiseOutput.branches", "fm2prof/utils.py::VisualiseOutput.split_css"]}
{"id": "C133", "title": "Asking for a branch gives its cross-sections", "statement": "Asking the visualiser for a branch that occurs gives exactly the cross-sections on it with their chainage along the branch; asking for another raises KeyError.", "quantifier": "every definition file and every branch name", "why_tests_cant": "All sets of names.", "anchors": ["fm2prof/utils.py::VisualiseOutput.get_cross_sections_for_branch", "fm2prof/utils.py::VisualiseOutput.get_css_for_branch"]}
{"id": "C134", "title": "All cross-sections can be plotted in one go", "statement": "Plotting all cross-sections leaves a figure for each cross-section in the definition file.", "quantifier": "every run", "why_tests_cant": "All runs.", "anchors": ["fm2prof/utils.py::VisualiseOutput.plot_cross_sections", "fm2prof/utils.py::VisualiseOutput.figure_cross_section"]}
{"id": "C135", "title": "A figure can be made of each cross-section of a successful run", "statement": "After a run that reports success a figure can be made of each cross-section in the definition file.", "quantifier": "every 2D result, configuration and set of locations with a successful run", "why_tests_cant": "All inputs and configurations.", "anchors": ["fm2prof/utils.py::VisualiseOutput.figure_cross_section", "fm2prof/utils.py::VisualiseOutput._plot_geometry", "fm2prof/utils.py::VisualiseOutput._plot_volume", "fm2prof/utils.py::VisualiseOutput._plot_roughness", "fm2prof/fm2prof_runner.py::Fm2ProfRunner.run"]}
{"id": "C136", "title": "Figures are not overwritten unless asked and a failed plot changes nothing", "statement": "A figure that exists stays as it is unless overwriting is allowed; no other file changes; when an error is logged nothing has changed; otherwise the figure shows what is in the files.", "quantifier": "every directory content, cross-section and outcome of drawing", "why_tests_cant": "All contents of the directory and all failures.", "anchors": ["fm2prof/utils.py::VisualiseOutput.figure_cross_section"]}
{"id": "C137", "title": "Curves of the volume graph are what their labels say", "statement": "Each curve of the volume graph is the column of the volume table that its label names, against the water levels of that table.", "quantifier": "every volume table", "why_tests_cant": "All tables.", "anchors": ["fm2prof/utils.py::VisualiseOutput._plot_volume", "fm2prof/utils.py::VisualiseOutput.get_volume_info_for_css"]}
{"id": "C138", "title": "The drawing of a cross-section is symmetric and shows its profile", "statement": "The drawing has half of each width on either side of the middle at its level, starts from width zero at the lowest level, and never shows flow width outside total width when the profile has flow width at most total width.", "quantifier": "every definition", "why_tests_cant": "All profiles.", "anchors": ["fm2prof/utils.py::VisualiseOutput._plot_geometry"]}
{"id": "C139", "title": "The longitudinal figure shows the range of the roughness", "statement": "The longitudinal figure of a branch shows for each cross-section on it, at its chainage in kilometres, the smallest and largest roughness in the main roughness file.", "quantifier": "every set of results and every branch that occurs", "why_tests_cant": "All results.", "anchors": ["fm2prof/utils.py::VisualiseOutput.figure_roughness_longitudinal", "fm2prof/utils.py::VisualiseOutput.get_roughness_info_for_css"]}
{"id": "C140", "title": "A configuration that loads can be run", "statement": "Whatever is written in a configuration file, if it loads without error then every setting of a run has a value of its kind; the default configuration has one as well.", "quantifier": "every text of a configuration file", "why_tests_cant": "All texts.", "anchors": ["fm2prof/ini_file.py::IniFile._read_inifile", "fm2prof/ini_file.py::IniFile.get_parameter", "fm2prof/fm2prof_runner.py::Fm2ProfRunner._initialise_fm2prof"]}
{"id": "C141", "title": "Setting a parameter changes its setting and no other", "statement": "Setting a parameter or an input file of a project, in any capitalisation of its name, changes the setting of a run that belongs to it to the new value and leaves all other settings as they are.", "quantifier": "every configuration, parameter, value and capitalisation", "why_tests_cant": "All configurations and values.", "anchors": ["fm2prof/fm2prof_runner.py::Project.set_parameter", "fm2prof/fm2prof_runner.py::Project.set_input_file", "fm2prof/ini_file.py::IniFile.set_parameter"]}
{"id": "C142", "title": "Every documented parameter has an effect and is checked", "statement": "Each parameter in the configuration affects the run, and setting a parameter to a value of the wrong type gives an error.", "quantifier": "every configuration, parameter and value", "why_tests_cant": "All configurations, values and inputs of a run.", "anchors": ["fm2prof/fm2prof_runner.py::Project.set_parameter", "fm2prof/ini_file.py::IniFile.set_parameter"]}
{"id": "C143", "title": "The polygons decide about sections and regions in a run", "statement": "In a run faces and edges have the section and region of the polygon that contains their first node, or the default, and each face belongs to the nearest location in its region.", "quantifier": "every map file, polygon file and set of locations", "why_tests_cant": "All grids and polygons.", "anchors": ["fm2prof/fm2prof_runner.py::Fm2ProfRunner._set_fm_model_data", "fm2prof/polygon_file.py::MultiPolygon.get_gridpoints_in_polygon", "fm2prof/polygon_file.py::MultiPolygon.meshkernel_inpolygon"]}
{"id": "C144", "title": "A run uses the polygons as they are now", "statement": "When a polygon file or the default section is changed between two runs, the second run uses the changed polygons.", "quantifier": "every project and every change of its polygon files between two runs", "why_tests_cant": "All histories of edits and runs.", "anchors": ["fm2prof/polygon_file.py::MultiPolygon.get_gridpoints_in_polygon", "fm2prof/polygon_file.py::SectionPolygon.get_gridpoints_in_polygon", "fm2prof/fm2prof_runner.py::Fm2ProfRunner._set_fm_model_data"]}
{"id": "C145", "title": "A run with an unusable polygon file stops without a trace", "statement": "When a polygon file cannot be used a run returns false and leaves all files as they are.", "quantifier": "every project and every defect of a polygon file", "why_tests_cant": "All defects.", "anchors": ["fm2prof/fm2prof_runner.py::Fm2ProfRunner._initialise_fm2prof", "fm2prof/polygon_file.py::MultiPolygon.from_file", "fm2prof/polygon_file.py::MultiPolygon.polygons"]}
{"id": "C146", "title": "Region polygons are checked for a region", "statement": "A region polygon file is accepted only when every polygon has a region, so that every point gets a region.", "quantifier": "every polygon file", "why_tests_cant": "All polygon files.", "anchors": ["fm2prof/polygon_file.py::RegionPolygon", "fm2prof/polygon_file.py::MultiPolygon.from_file"]}
{"id": "C147", "title": "A section with another name does not harm the other sections", "statement": "When a section has a name that has no roughness file, a run still writes the roughness files of the known sections.", "quantifier": "every map file, list of locations, set of section polygons, configuration and selection", "why_tests_cant": "All input data.", "anchors": ["fm2prof/fm2prof_runner.py::Fm2ProfRunner._write_output", "fm2prof/polygon_file.py::SectionPolygon._validate_sections"]}
{"id": "C148", "title": "The correction does not make the total volumes fit worse", "statement": "With the default method, the total volumes of a cross-section after the volume correction fit the 2D total volumes at least as well as the better of what the search starts from; with an exact search they never fit worse than without correction, and where volume is added no crest level and no volume would fit better.", "quantifier": "every cross-section, transition function and search that does not end worse than it starts", "why_tests_cant": "All volume curves and all outcomes of the numerical search.", "anchors": ["fm2prof/cross_section.py::CrossSection.calculate_correction", "fm2prof/cross_section.py::CrossSection._optimisation_func", "fm2prof/cross_section.py::CrossSection._optimize_sd_storage"]}
{"id": "C149", "title": "The extra flow volume is fitted to the 2D flow volumes", "statement": "The volume correction chooses the extra flow volume so that the flow volumes of the cross-section fit those of the 2D model; what the 2D model stores without flow becomes storage.", "quantifier": "every cross-section, method and search", "why_tests_cant": "All volume curves and all outcomes of the numerical search.", "anchors": ["fm2prof/cross_section.py::CrossSection.calculate_correction", "fm2prof/cross_section.py::CrossSection._optimisation_func", "fm2prof/cross_section.py::CrossSection._combined_optimisation_func", "fm2prof/cross_section.py::CrossSection._optimize_sd_storage"]}
{"id": "C150", "title": "The map file can be given as a text or as a path", "statement": "Setting the map file of a project from Python to a text, as the README does, gives the same run as giving it in a configuration file or as a Path.", "quantifier": "every project, map file and set of polygon files", "why_tests_cant": "All projects.", "anchors": ["fm2prof/fm2prof_runner.py::Project.set_input_file", "fm2prof/fm2prof_runner.py::Fm2ProfRunner._set_fm_model_data", "fm2prof/polygon_file.py::MultiPolygon.get_gridpoints_in_polygon"]}
{"id": "C151", "title": "Each value of the map file is used for its own face, edge and map", "statement": "The coordinates, area, bed level, water depths, water levels, velocities and roughness that are used for a face or internal edge at a time are those that the map file has for this face or edge at this time; boundary edges are left out everywhere.", "quantifier": "every map file", "why_tests_cant": "All numbers of faces, edges and maps.", "anchors": ["fm2prof/data_import.py::FMDataImporter.import_dflow2d", "fm2prof/polygon_file.py::MultiPolygon.meshkernel_inpolygon"]}
{"id": "C152", "title": "A map file with all that a run uses can be read", "statement": "A map file that has the variables that a run uses can be read, whichever of the two names the roughness has; if one is missing the run stops and leaves all files as they are.", "quantifier": "every map file", "why_tests_cant": "All sets of variables.", "anchors": ["fm2prof/data_import.py::FMDataImporter.import_dflow2d"]}
{"id": "C153", "title": "Missing values in the map file are not used as numbers", "statement": "Where a result is marked as missing in the map file, no number is used for it.", "quantifier": "every map file and every missing value", "why_tests_cant": "All map files.", "anchors": ["fm2prof/data_import.py::FMDataImporter.import_dflow2d"]}
{"id": "C154", "title": "An export in a format writes this format or fails", "statement": "Exporting geometry or roughness in one of the three documented formats writes a file in this format and touches no other file; with any other name of a format an error is raised and the file that was there stays.", "quantifier": "every list of cross-sections, file and name of a format", "why_tests_cant": "All names and cross-sections.", "anchors": ["fm2prof/export.py::Export1DModelData.export_geometry", "fm2prof/export.py::Export1DModelData.export_roughness"]}
{"id": "C155", "title": "Levels along a route are those at the moment drawn", "statement": "The figure along a route has a line for each of its moments, which shows at the kilometre of each station the 1D level at this moment, and the 1D less the 2D level at this moment.", "quantifier": "every pair of models, route, and start and stop time", "why_tests_cant": "All tables of levels, routes and windows.", "anchors": ["fm2prof/utils.py::Compare1D2D.figure_longitudinal"]}
{"id": "C156", "title": "A statistic along a route is that of each station", "statement": "The figure of the minimum, the maximum or the mean along a route shows for each station this statistic of its own 1D levels between the start and the stop time, and the difference with that of its own 2D levels; an unknown statistic is refused.", "quantifier": "every pair of models, route, statistic, and start and stop time", "why_tests_cant": "All tables of levels, routes and windows.", "anchors": ["fm2prof/utils.py::Compare1D2D.figure_longitudinal"]}
{"id": "C157", "title": "A heat map has a row for each station and a column for each time", "statement": "A heat map of a route holds in the row of each station of the route the 1D less the 2D level at each time between the start and the stop time at which both are known, and no other columns.", "quantifier": "every pair of models, route, and start and stop time", "why_tests_cant": "All tables of levels, routes and windows.", "anchors": ["fm2prof/utils.py::Compare1D2D.heatmap_time", "fm2prof/utils.py::Compare1D2D.heatmap_rating_curve"]}
{"id": "C158", "title": "Every figure of a comparison is saved in its own file", "statement": "Figures that show different things, of another kind, of another route, statistic, station or pair of stations, are saved in different files, and saving one figure leaves the others as they are.", "quantifier": "every pair of figures and every content of the output directory", "why_tests_cant": "All names of routes, stations and titles.", "anchors": ["fm2prof/utils.py::Compare1D2D.figure_longitudinal", "fm2prof/utils.py::Compare1D2D.figure_at_station", "fm2prof/utils.py::Compare1D2D.figure_compare_discharge_at_stations", "fm2prof/utils.py::Compare1D2D.heatmap_time"]}
{"id": "C159", "title": "The shares of a discharge add up", "statement": "The figure that compares the discharges at two stations shows for each model the part each station has of the sum of both, adding up to a hundred percent, and the differences between the models at both stations between the start and the stop time.", "quantifier": "every pair of models, of stations, and start and stop time", "why_tests_cant": "All tables of discharges.", "anchors": ["fm2prof/utils.py::Compare1D2D.figure_compare_discharge_at_stations"]}
{"id": "C160", "title": "A full evaluation makes all figures", "statement": "Evaluating a comparison makes for each route the figures along it and the heat maps, and for each station its figure.", "quantifier": "every pair of models and list of routes", "why_tests_cant": "All models, routes and lengths of the computation.", "anchors": ["fm2prof/utils.py::Compare1D2D.eval"]}
{"id": "C161", "title": "The figure at a station shows its own levels and their difference", "statement": "The figure at a station shows its levels in both models between the start and the stop time, or the rating curves of both, with their difference wherever both are known and the statistics of the same records; another type of figure is refused.", "quantifier": "every pair of models, station, type of figure, and start and stop time", "why_tests_cant": "All tables of levels and windows.", "anchors": ["fm2prof/utils.py::Compare1D2D.figure_at_station"]}
{"id": "C162", "title": "Rating curves along a route are those of its stations", "statement": "The figure of rating curves along a route shows for at most eight increasing discharges the level of the 1D rating curve of each station of the route at this discharge, and the difference with the 2D rating curve.", "quantifier": "every pair of tables of rating curves and every route", "why_tests_cant": "All tables and routes.", "anchors": ["fm2prof/utils.py::Compare1D2D.figure_longitudinal_rating_curve"]}
{"id": "C163", "title": "The location generator writes what the network and the rules say, or nothing", "statement": "Generating a location file from a network file and a branch rule file writes the location file and no other, and a run that reads it gets the locations of all branches, each as the last line for it in the rule file says. If the network or the rule file that is named is missing, or something in them is wrong, an error is raised and the location file that was there stays.", "quantifier": "every content of the directory, network file and rule file", "why_tests_cant": "All networks and rule files.", "anchors": ["fm2prof/utils.py::GenerateCrossSectionLocationFile", "fm2prof/utils.py::GenerateCrossSectionLocationFile._network_definition_file_to_input", "fm2prof/utils.py::GenerateCrossSectionLocationFile._write_cross_section_location_file"]}
{"id": "C164", "title": "A map in which the water does not rise does not change the profile", "statement": "Leaving out a map in which the level at the location is not above that of an earlier map gives the same levels, widths, volumes, crest level and extra areas. In particular all maps after the highest water may be left out.", "quantifier": "every control volume, number of maps, map and setting", "why_tests_cant": "The number of maps and their levels are free; a test shows one run with and one without a map.", "anchors": ["fm2prof/cross_section.py::CrossSection.build_geometry", "fm2prof/cross_section.py::CrossSection._check_monotonicity", "fm2prof/cross_section.py::CrossSection._identify_lakes"]}
{"id": "C165", "title": "The resolution of the grid does not change the profile", "statement": "When faces of the grid are divided into smaller faces that hold the same water, the profile at a location is the same.", "quantifier": "every control volume and every division of its faces into any number of smaller ones", "why_tests_cant": "There are unboundedly many divisions of every grid.", "anchors": ["fm2prof/cross_section.py::CrossSection.build_geometry", "fm2prof/cross_section.py::CrossSection._distinguish_conveyance_from_storage"]}
{"id": "C166", "title": "An interrupted run can be repeated", "statement": "When runs have been stopped from outside at any moments, also in the middle of a file, running again with the overwrite option gives the files and the report of a run that was never stopped. Without the overwrite option the same holds as long as no result file was begun.", "quantifier": "every number of interrupted runs, with and without overwriting, and every moment of interruption", "why_tests_cant": "The moments at which a process can be killed are as many as the characters it writes, and interruptions can follow each other.", "anchors": ["fm2prof/fm2prof_runner.py::Fm2ProfRunner.run", "fm2prof/fm2prof_runner.py::Fm2ProfRunner._output_exists", "fm2prof/export.py::Export1DModelData"]}
{"id": "C167", "title": "The list of output files is that of the files a run writes", "statement": "A file that a run has changed is in the list of output files of the project, and every file in the list is written by a run.", "quantifier": "every project, output directory and file", "why_tests_cant": "Which files are written depends on the data, the settings and the errors of the run.", "anchors": ["fm2prof/fm2prof_runner.py::Project.output_files", "fm2prof/fm2prof_runner.py::Fm2ProfRunner._write_output"]}
{"id": "C168", "title": "An interrupted run of a project with polygons can be repeated", "statement": "When a run was stopped at any moment, also while it stores which region and section the points of the grid lie in, running again with the overwrite option gives the files and the report of a run that was not stopped.", "quantifier": "every project, state of the cache files and moment of interruption", "why_tests_cant": "The cache files outlive the run; the moments at which it can be stopped are unbounded.", "anchors": ["fm2prof/fm2prof_runner.py::Fm2ProfRunner.run", "fm2prof/polygon_file.py::MultiPolygon.get_gridpoints_in_polygon", "fm2prof/polygon_file.py::MultiPolygon._write_cache", "fm2prof/polygon_file.py::MultiPolygon._load_cache"]}
{"id": "C169", "title": "Simplifying a line to a share of its points", "statement": "Simplifying a line to a share of its points gives points of the line in their order, not more than that share of them, and the first and the last point of the line remain. When no two inner points are equally important, exactly the whole number of points in the share remains. A share of zero or less or above one is refused.", "quantifier": "every line of two or more points and every share", "why_tests_cant": "Whether the ends remain depends on how the share, the number of points and equal importances combine.", "anchors": ["fm2prof/lib/polysimplify.py::VWSimplifier.from_ratio", "fm2prof/lib/polysimplify.py::VWSimplifier.from_number"]}
{"id": "C170", "title": "The alluvial and non-alluvial widths are those of the sections", "statement": "The alluvial width that a cross-section reports is the width of its main section and the non-alluvial width is the width of its floodplain.", "quantifier": "every cross-section with section widths", "why_tests_cant": "Tests on a cross-section without floodplain cannot tell a missing width from a width of zero.", "anchors": ["fm2prof/cross_section.py::CrossSection.alluvial_width", "fm2prof/cross_section.py::CrossSection.nonalluvial_width"]}
{"id": "C171", "title": "A run from the command line does what the configuration file says", "statement": "For a plain configuration file, run uses the values that are written in it and the documented defaults for all others, with the input files that exist beside it. It leaves in the output directory of the project what a run with these settings leaves there, changes no other output directory and none of its input files, and has exit status 0 unless the run raises an exception. After exit status 0 with readable input the definition file has one valid profile for each selected location with ten faces or more. Without map file or location file nothing but the log file changes.", "quantifier": "every plain configuration file, every content of the other files, every output directory and every earlier content of it", "why_tests_cant": "The path from a line in a file through loading, reading the input, building, simplifying and exporting to the results is only covered for single files.", "anchors": ["fm2prof/cli.py::cli_load_project", "fm2prof/ini_file.py::IniFile", "fm2prof/fm2prof_runner.py::Fm2ProfRunner.run"]}
{"id": "C172", "title": "A run uses the polygons that the configuration file names", "statement": "When a configuration file names a polygon file for sections or regions, a run uses its polygons, or fails if it cannot.", "quantifier": "every configuration file and every polygon file", "why_tests_cant": "A mistake in a file name is one of unboundedly many names, and the results look valid.", "anchors": ["fm2prof/ini_file.py::IniFile", "fm2prof/fm2prof_runner.py::Fm2ProfRunner._set_fm_model_data", "fm2prof/polygon_file.py::SectionPolygon"]}
{"id": "C173", "title": "What was done before does not change the results", "statement": "The results and the exit status of run with overwriting depend only on the input files of the project, not on the commands that were given before: creating, checking and running any projects, in any order.", "quantifier": "every list of commands and every content of the files", "why_tests_cant": "The number of histories is unbounded and the cache files carry information from one run to the next.", "anchors": ["fm2prof/cli.py::cli_load_project", "fm2prof/cli.py::cli_create_new_project", "fm2prof/cli.py::cli_check_project", "fm2prof/polygon_file.py::MultiPolygon", "fm2prof/fm2prof_runner.py::Fm2ProfRunner.run"]}
{"id": "C174", "title": "A command that was stopped can be given again", "statement": "However often commands were stopped from outside, and at whatever moment, run with overwriting gives a project the same exit status and the same results as if it had been given at once: each file in the output directory, besides the log, has the same text, or neither run touches it.", "quantifier": "every history of commands, runs of the project that were stopped and stopped runs of other projects, and every moment of the stops", "why_tests_cant": "There are unboundedly many moments at which a run can be stopped and unboundedly many histories, and a stop leaves parts of files.", "anchors": ["fm2prof/cli.py::cli_load_project", "fm2prof/polygon_file.py::MultiPolygon", "fm2prof/fm2prof_runner.py::Fm2ProfRunner.run", "fm2prof/fm2prof_runner.py::Fm2ProfRunner._write_output"]}
{"id": "C175", "title": "Over horizontal water the widths are those of the bed", "statement": "When the water surface in the map file is horizontal and rises, the profile has a point at each water level, and there the total width times the length is the area of the faces of which the bed is below the level; below the first level it has ten equidistant points down to the bed at the location, with the area of the faces that are below the point to within a millimetre; the 2D volume is the water above the bed at the location. When all of the water moves faster than the absolute threshold, flow widths and volumes are the total ones.", "quantifier": "every bed, every sequence of rising levels, every number of skipped maps and lake time steps and every location that is under water", "why_tests_cant": "Tests compare a few beds with stored results; the claim relates the result to the geometry of any bed.", "anchors": ["fm2prof/cross_section.py::CrossSection.build_geometry", "fm2prof/cross_section.py::CrossSection._identify_lakes", "fm2prof/cross_section.py::CrossSection._extend_css_below_z0", "fm2prof/cross_section.py::CrossSection._distinguish_conveyance_from_storage"]}
{"id": "C176", "title": "Over horizontal water the 1D volume is close to the 2D volume", "statement": "When the water surface is horizontal and rises, the volume below each level that follows from the profile differs from the 2D volume by no more than half of the largest step between levels plus one millimetre, times the area of the faces that are under water and higher than the bed at the location. When no face is higher than the location the volumes are equal.", "quantifier": "every bed with non-negative areas, every sequence of rising levels, every number of skipped maps and lake time steps", "why_tests_cant": "The error of the trapezoid rule has to be bounded for every bed and every number of maps.", "anchors": ["fm2prof/cross_section.py::CrossSection.build_geometry"]}
{"id": "C177", "title": "A run over horizontal water writes the curve of the bed", "statement": "After a run that reports success, when the water surface at each location is horizontal and rises, each point of a profile in the definition file is a level and, up to a millimetre for each point of the profile, the area of the faces of the location with a bed below that level, divided by the length (or the minimum width), where a bed within a millimetre of the level may count or not.", "quantifier": "every bed, every rising series of levels per location, every configuration of skipped maps, lake time steps, number of points and correction", "why_tests_cant": "The claim relates the written file to the geometry of any bed through all steps of a run.", "anchors": ["fm2prof/cross_section.py::CrossSection.build_geometry", "fm2prof/cross_section.py::CrossSection.check_requirements", "fm2prof/cross_section.py::CrossSection.reduce_points", "fm2prof/fm2prof_runner.py::Fm2ProfRunner.run", "fm2prof/export.py::Export1DModelData.export_geometry"]}
{"id": "C178", "title": "Comparing does not touch the results of runs", "statement": "`fm2prof compare` leaves all configuration files, all input files and all directories in place; in output directories it changes only the log and the tables and figures of the comparison, none of which is a file of results; and in directories other than the output directory of the project it changes nothing.", "quantifier": "every project, pair of results, text for the routes and state of the files, also when the command fails", "why_tests_cant": "All states of all directories, and every way in which the command may fail.", "anchors": ["fm2prof/cli.py::cli_compare_1d2d", "fm2prof/utils.py::Compare1D2D.__init__", "fm2prof/utils.py::Compare1D2D.eval"]}
{"id": "C179", "title": "A comparison from the command line shows the results it was given", "statement": "After `fm2prof compare` with a project, results of a 1D and a 2D model and routes, the output directory of the project holds the tables of levels and discharges of both models at the stations, their rating curves, for each route the levels along it at moments of the 1D period, the heat maps of the differences over time and between the rating curves, and for each station the levels of both models with their difference and statistics.", "quantifier": "every project, pair of results with any number of stations and records, and any number of routes", "why_tests_cant": "The claim relates the files of the whole command to all results and routes.", "anchors": ["fm2prof/cli.py::cli_compare_1d2d", "fm2prof/utils.py::Compare1D2D.__init__", "fm2prof/utils.py::ModelOutputReader.read_all_data", "fm2prof/utils.py::Compare1D2D.digitize_data", "fm2prof/utils.py::Compare1D2D.eval"]}
{"id": "C180", "title": "Comparing again shows the results as they are now", "statement": "`fm2prof compare` in an output directory with an earlier comparison gives what it would give without one: the same files for the same results, and those of the new results when the results have changed.", "quantifier": "every state of the output directory that an earlier comparison left, and all new results", "why_tests_cant": "All histories of comparisons.", "anchors": ["fm2prof/cli.py::cli_compare_1d2d", "fm2prof/utils.py::ModelOutputReader.read_all_data", "fm2prof/utils.py::Compare1D2D.digitize_data"]}
{"id": "C181", "title": "Each run of a Python script uses the values last set", "statement": "A script opens a project and sets parameters, input files and the output directory, with runs in between, in any order. Each run uses the values that were last set, in any capitalisation, and for the rest those of the configuration file; it writes to the output directory that was last set and changes no other directory, no input file and not the configuration. Two scripts that end with the same values give the same results, whatever they set and ran before.", "quantifier": "every sequence of calls of any length, every project, map file and state of the output directories", "why_tests_cant": "All histories of calls.", "anchors": ["fm2prof/fm2prof_runner.py::Project.set_parameter", "fm2prof/fm2prof_runner.py::Project.set_input_file", "fm2prof/fm2prof_runner.py::Project.set_output_directory", "fm2prof/fm2prof_runner.py::Fm2ProfRunner.run", "fm2prof/ini_file.py::IniFile._set_config_value"]}
{"id": "C182", "title": "A project set up in Python runs the same from the command line", "statement": "When a script writes what `print_configuration` returns to a file, in any directory, then `fm2prof run` with this file leaves the same results in the same output directory as `run` in the script, and exits with 0 if and only if `run` in the script does not raise.", "quantifier": "every project, values of parameters and files, state of the files, and place of the new configuration file", "why_tests_cant": "The claim relates printing, reading and the whole run for all configurations.", "anchors": ["fm2prof/fm2prof_runner.py::Project.print_configuration", "fm2prof/fm2prof_runner.py::Fm2ProfRunner.run", "fm2prof/fm2prof_runner.py::Fm2ProfRunner.load_configuration", "fm2prof/ini_file.py::IniFile.print_configuration", "fm2prof/cli.py::cli"]}
{"id": "C183", "title": "The order of the cross-sections in the location file does not matter", "statement": "When each face and edge is nearest to one cross-section only, putting the lines of the location file in another order changes neither whether a run over all cross-sections succeeds nor what is in its results: the definitions, locations and roughness tables are the same, in another order.", "quantifier": "every map file, location file, order of its lines, region and section polygons and configuration without a selection of cross-sections", "why_tests_cant": "All orders of the locations and all grids; the roughness levels depend on all cross-sections together.", "anchors": ["fm2prof/nearest_neighbour.py::classify_without_regions", "fm2prof/nearest_neighbour.py::classify_with_regions", "fm2prof/fm2prof_runner.py::Fm2ProfRunner._generate_cross_section_list", "fm2prof/cross_section.py::CrossSectionHelpers.interpolate_friction_across_cross_sections", "fm2prof/export.py::Export1DModelData._write_geometry_fm1d"]}
{"id": "C184", "title": "How an area is cut up into polygons does not matter", "statement": "As long as polygons with different labels do not overlap at a node of the grid or at a cross-section location, a run depends on which nodes and locations the polygons of each section and region cover only. The order of the polygons in the file, their names, their other properties and how an area is cut up into polygons change neither the results nor the cache files, and a file with its polygons in another order can be read exactly if the given one can.", "quantifier": "every map file, location file, configuration, state of the cache files, and every two pairs of polygon files that cover the same nodes and locations", "why_tests_cant": "All ways of cutting up an area and all orders; grid points take the last and locations the first polygon that contains them.", "anchors": ["fm2prof/polygon_file.py::MultiPolygon.get_gridpoints_in_polygon", "fm2prof/polygon_file.py::MultiPolygon.get_points_in_polygon", "fm2prof/polygon_file.py::MultiPolygon.meshkernel_inpolygon", "fm2prof/polygon_file.py::MultiPolygon.from_file", "fm2prof/polygon_file.py::SectionPolygon._validate_sections", "fm2prof/fm2prof_runner.py::Fm2ProfRunner._set_fm_model_data"]}
{"id": "C185", "title": "Cross-sections elsewhere do not matter", "statement": "Adding, moving or leaving out cross-sections changes the definition of a cross-section only if it changes which grid points are nearest to it: when each face and edge is clearly nearest to the cross-section with both location files, or clearly not with both, two successful runs write the same definition for it. With region polygons only cross-sections of the same region count: cross-sections in other regions can be added, moved or left out however near they are.", "quantifier": "every 2D model, configuration, pair of location files, selection of cross-sections, state of the output directories, and every nearest neighbour search that resolves ties in any way", "why_tests_cant": "All pairs of location files, and the profile is the end of the whole chain from assigning points to printing.", "anchors": ["fm2prof/nearest_neighbour.py::classify_with_regions", "fm2prof/nearest_neighbour.py::classify_without_regions", "fm2prof/data_import.py::FmModelData.get_selection", "fm2prof/fm2prof_runner.py::Fm2ProfRunner._set_fm_model_data", "fm2prof/fm2prof_runner.py::Fm2ProfRunner._create_new_cross_section", "fm2prof/export.py::Export1DModelData.export_geometry"]}
{"id": "C186", "title": "Maps after the highest water do not matter", "statement": "A map file may be cut off after the highest water: if at the face nearest to a location, which is always wet, no later map has a higher level than all maps before the cut, two successful runs with the whole map file and with the part of it write the same definition for the location. So may one map in which the water does not rise, if it is the last, if the depths are those of the map before it, or if there are no lakes.", "quantifier": "every 2D model with section polygons (for a map that is not the last also without), every configuration with the default way of finding the flowing part, every place of the cut after the maps that are skipped and used to find lakes, every state of the output directories", "why_tests_cant": "All map files and cuts, and the profile is the end of the whole chain from reading to printing.", "anchors": ["fm2prof/cross_section.py::CrossSection.build_geometry", "fm2prof/data_import.py::FmModelData.get_selection", "fm2prof/fm2prof_runner.py::Fm2ProfRunner._set_fm_model_data", "fm2prof/fm2prof_runner.py::Fm2ProfRunner._create_new_cross_section", "fm2prof/export.py::Export1DModelData.export_geometry"]}
{"id": "C187", "title": "A setting changes only what it is about", "statement": "Of two successful runs on the same data whose configurations differ in one group of settings, the other results are the same. The settings of the summer dikes change the summer dikes in the definitions, the geometry table and the volume table, but no level, width or section width. The smallest width does not change locations, roughness files or summer dikes. The number of points does not change locations, roughness files, volumes, sections or summer dikes, and a profile with fewer points allowed consists of some of the points with more allowed, with the lowest and the highest one. Whether additional files are written changes no result.", "quantifier": "every 2D model, every pair of configurations that differ in these settings (two points or more), every behaviour of the optimiser and the log in both runs, every write fault and every state of the output directory", "why_tests_cant": "All data and settings, and the comparison is between complete result files.", "anchors": ["fm2prof/fm2prof_runner.py::Fm2ProfRunner._build_cross_section_geometry", "fm2prof/cross_section.py::CrossSection.calculate_correction", "fm2prof/cross_section.py::CrossSection.check_requirements", "fm2prof/cross_section.py::CrossSection.reduce_points", "fm2prof/cross_section.py::CrossSection.assign_roughness", "fm2prof/fm2prof_runner.py::Fm2ProfRunner._write_output"]}
{"id": "C188", "title": "The layout of a configuration file does not matter", "statement": "Comment lines can be put anywhere in a configuration file, blank lines can be put between lines that start at the margin, and the sections and the lines within a section can be written in any order: loading the file gives the same values, the same exception and the same directories, and every command (create, check, run, compare) ends with the same exit status and leaves the same files behind. This holds for any number of commands and any number of configuration files.", "quantifier": "every text, every number of such changes to it, every state of the disk and the output directories, every sequence of commands, every behaviour of the computations and of mkdir", "why_tests_cant": "Tests load a few files with one layout each; the claim is about all pairs of texts that differ in layout only, and all histories.", "anchors": ["fm2prof/ini_file.py::IniFile._get_inifile_params", "fm2prof/ini_file.py::IniFile._read_inifile", "fm2prof/ini_file.py::IniFile.load_configuration_from_file", "fm2prof/cli.py::cli_load_project"]}
{"id": "C189", "title": "Runs at the same time do not disturb each other", "statement": "Any number of runs can go on at the same time. A run that shares its output directory with no other run, and of which every cache file that another run uses too is up to date for both, ends as on its own, and leaves in its output directory and in its cache files what it leaves on its own, in whatever order the runs take turns. Runs at the same time change no other files. Results that are in a directory before runs are started without --overwrite are never changed by them.", "quantifier": "every number of runs with any settings, every order of their steps (looking at a file, opening a file for writing, writing a piece of its text), every way of cutting texts into pieces, every state of the files", "why_tests_cant": "The outcome depends on the order in which processes take turns; a test sees one order, and cannot force the others.", "anchors": ["fm2prof/fm2prof_runner.py::Fm2ProfRunner.run", "fm2prof/fm2prof_runner.py::Fm2ProfRunner._output_exists", "fm2prof/polygon_file.py::MultiPolygon.get_gridpoints_in_polygon", "fm2prof/polygon_file.py::MultiPolygon._write_cache"]}
{"id": "C190", "title": "A project can be moved", "statement": "A project whose configuration file names its input files and its output directory relative to itself can be moved to another directory, and commands can be given from any directory. Whatever checks, runs and comparisons are given for it, each ends with the same exit status, and the results, log files and cache files in the directory of the project are the same. Nothing is left elsewhere.", "quantifier": "every two directories (each can be the current one), every configuration file of this kind, every state of the files in the directory, every sequence of commands for the project, every 2D model", "why_tests_cant": "All directories and all histories of commands; paths pass through loading, the names of cache files, the check of extensions and the output directory.", "anchors": ["fm2prof/ini_file.py::IniFile._extract_input_files", "fm2prof/ini_file.py::IniFile.get_relative_path", "fm2prof/ini_file.py::IniFile._get_valid_output_dir", "fm2prof/polygon_file.py::MultiPolygon.get_gridpoints_in_polygon", "fm2prof/cli.py::cli_load_project"]}
{"id": "C191", "title": "Names of cross-sections are names only", "statement": "If all cross-sections of the location file get other names, branches and chainages, different names staying different, a run ends in the same way and computes the same profiles, sections and summer dikes, which are written in the same order under the new names. If only the names change, the roughness files for D-Flow 1D do not change at all.", "quantifier": "every 2D model, every location file and every renaming, with and without region polygons, every configuration, every state of the output directory", "why_tests_cant": "All renamings and all models; names are also used as labels of faces and edges, next to the names of regions, and are cut off at 99 characters in one of the two tables.", "anchors": ["fm2prof/data_import.py::FmModelData.get_selection", "fm2prof/nearest_neighbour.py::classify_with_regions", "fm2prof/nearest_neighbour.py::classify_without_regions", "fm2prof/fm2prof_runner.py::Fm2ProfRunner._build_cross_section_geometry", "fm2prof/export.py::Export1DModelData"]}
{"id": "C192", "title": "One reader for several comparisons", "statement": "One reader of results can be used throughout a script: setting a path that is no file, or an output path that is no directory, is refused and changes nothing; the reader writes only its five files, and only in directories it was given; and whatever it was used for before, once its paths, output directory, offset and times are set and the data are read, it shows the levels and discharges of these results in the time window.", "quantifier": "every sequence of assignments, calls and table accesses on one reader, with other results in the files at each step, every pair of results", "why_tests_cant": "All histories of an object with nine mutable attributes; the attributes and files that earlier steps leave behind decide what later steps do.", "anchors": ["fm2prof/utils.py::ModelOutputReader.load_flow1d_data", "fm2prof/utils.py::ModelOutputReader.load_flow2d_data", "fm2prof/utils.py::ModelOutputReader.get_1d2d_map", "fm2prof/utils.py::ModelOutputReader.read_all_data", "fm2prof/utils.py::ModelOutputReader._apply_startstop_time"]}
{"id": "C193", "title": "The roughness of the 2D model matters for the roughness only", "statement": "With polygons of the sections, a map file with other roughness values gives the same outcome of the run and the same result files but for those with roughness; when all roughness values are multiplied by a number, so are the values in the roughness files for D-Flow 1D.", "quantifier": "every map file and every other set of roughness values for its edges and faces, every configuration, every number not zero, all faults in writing", "why_tests_cant": "All roughness fields of all 2D models: tests compare one map file with stored results and never two map files that differ in one field.", "anchors": ["fm2prof/fm2prof_runner.py::Fm2ProfRunner._set_fm_model_data", "fm2prof/cross_section.py::CrossSection._build_roughness_tables", "fm2prof/cross_section.py::CrossSectionHelpers.interpolate_friction_across_cross_sections", "fm2prof/export.py::Export1DModelData.export_roughness"]}
{"id": "C194", "title": "Stored data and flow masks", "statement": "With ExportCSSData, a run that reports success leaves for every requested location a file with its data, and for every location with at least ten faces a file with the flow mask that its profile is made with: only faces with water are marked, and each observed flow area is the total area of the marked faces at one of the maps.", "quantifier": "every map file, every list of locations and selection, every configuration, every prior content of the directory, all faults in writing", "why_tests_cant": "All lists of location names: two names can share a file, which no test of a single location shows.", "anchors": ["fm2prof/fm2prof_runner.py::Fm2ProfRunner._create_new_cross_section", "fm2prof/cross_section.py::CrossSection.build_geometry"]}
{"id": "C195", "title": "The velocities and the conveyance settings matter for the flow part only", "statement": "Other velocities in the map file, another ConveyanceDetectionMethod, other velocity thresholds or another ExtrapolateStorage change the flow widths and what follows from them. The locations, the roughness files, the levels and total widths of the definitions (the total width is leading for the reduction of points), and the total volumes and areas of the volume file stay the same; so do crest level, total area and base level of the summer dikes when these are fitted to the total volumes.", "quantifier": "every map file and every other series of velocities, every configuration, every selection, any optimiser", "why_tests_cant": "All pairs of velocity fields and all settings: a test compares a few.", "anchors": ["fm2prof/cross_section.py::CrossSection.build_geometry", "fm2prof/cross_section.py::CrossSection._distinguish_conveyance_from_storage", "fm2prof/cross_section.py::CrossSection.reduce_points"]}
{"id": "C196", "title": "Stricter velocity thresholds do not widen the flow part", "statement": "Raising AbsoluteVelocityThreshold or RelativeVelocityThreshold never makes the conveying part larger: the observed flow area of each level is at most what it was, and so is the flow width of each level of the profile.", "quantifier": "every map file with areas that are not negative, every configuration, both detection methods, all pairs of thresholds, any optimiser", "why_tests_cant": "All pairs of thresholds and all velocity fields; the repair of repeated widths breaks the claim by a few millimetres, for particular areas only.", "anchors": ["fm2prof/cross_section.py::CrossSection._distinguish_conveyance_from_storage", "fm2prof/cross_section.py::CrossSection.check_requirements", "fm2prof/cross_section.py::CrossSection._check_increasing_order"]}
{"id": "C197", "title": "A larger control volume does not get smaller areas and volumes", "statement": "When faces are added to the control volume of a location, or faces of it become larger, while the face nearest to the location holds the same water, then the volume file has as many levels for the location, and at none of them a smaller wet area or a smaller 1D volume.", "quantifier": "every pair of map files that differ so at a location, whatever they have elsewhere; every configuration, any velocities and any optimiser", "why_tests_cant": "All ways to add faces to all grids; the levels, the lakes and the part below the first level depend on the faces in different ways.", "anchors": ["fm2prof/cross_section.py::CrossSection.build_geometry", "fm2prof/cross_section.py::CrossSection._extend_css_below_z0", "fm2prof/export.py::Export1DModelData.export_volumes"]}
{"id": "C198", "title": "Each line of the location file has its own control volume and its own id", "statement": "The names in the location file are what tells profiles apart: the ids in the definition file are different if and only if the lines that were used have different names, and over the control volumes of all lines together each face counts as often as there are lines with the name it was given. Lines with different names share no face; lines with the same name share all of them, however far apart they are.", "quantifier": "every location file, map file and configuration", "why_tests_cant": "All ways in which names can be repeated over all grids; a test has only files with proper names.", "anchors": ["fm2prof/data_import.py::FmModelData.get_selection", "fm2prof/nearest_neighbour.py", "fm2prof/fm2prof_runner.py::Fm2ProfRunner._generate_cross_section_list", "fm2prof/export.py::Export1DModelData.export_geometry"]}
{"id": "C199", "title": "A map file that is written less often gives some of the rows of the same table", "statement": "If the 2D results are written less often, and the water at a location rises from each map to the next, then the table of the location has the ten points below the first level and one for each map that is left, with the same levels, total widths, areas and 2D volumes as with all maps, and flow widths that are not smaller.", "quantifier": "every selection of the maps that keeps the skipped ones and the first one after them, every map file, configuration with the default conveyance detection, and location without lakes", "why_tests_cant": "All ways to thin out a series of maps; the lakes, the part below the first level and the steps between maps all use several maps.", "anchors": ["fm2prof/cross_section.py::CrossSection.build_geometry", "fm2prof/cross_section.py::CrossSection._extend_css_below_z0", "fm2prof/cross_section.py::CrossSection._identify_lakes", "fm2prof/export.py::Export1DModelData.export_volumes"]}
{"id": "C200", "title": "A location and the grid around it are in the same region", "statement": "Where the polygons of the region file lie within or over each other, a location and the faces around it that lie in the same polygons get the same region, so that the faces can belong to the location.", "quantifier": "every region file, location file and map file, every order of the polygons in the file", "why_tests_cant": "All ways in which polygons can overlap and be ordered; the locations and the grid are classified by two different functions, each of which passes its own tests.", "anchors": ["fm2prof/polygon_file.py::MultiPolygon.get_points_in_polygon", "fm2prof/polygon_file.py::MultiPolygon.meshkernel_inpolygon", "fm2prof/nearest_neighbour.py"]}
{"id": "C201", "title": "The direction of the flow does not matter", "statement": "Two map files that differ only in the direction of the velocities, not in their size, give the same files: in particular a run with all velocities reversed, or with the grid's axes swapped for the velocities only, changes nothing.", "quantifier": "every map file, configuration and location file, every change of direction per face and map", "why_tests_cant": "All directions at all faces and maps; a test has one flow field.", "anchors": ["fm2prof/data_import.py::FmModelData.get_selection", "fm2prof/cross_section.py::CrossSection.build_geometry"]}
{"id": "C202", "title": "A larger smallest width changes only the narrow parts of the profiles", "statement": "With a larger MinimumTotalWidth and everything else the same, the volume file has the same levels, 2D volumes and areas and profile volumes. Each total and flow width is the same as before, or it was smaller and is now larger but not more than the new minimum, apart from the 0.001 per point below it that keeps widths apart.", "quantifier": "every map file, configuration and pair of minimum widths", "why_tests_cant": "The minimum is applied before equal widths are moved apart and before the flow width is limited by the total width, so that its effect can spread upwards; all lists of widths are needed to know how far.", "anchors": ["fm2prof/cross_section.py::CrossSection.check_requirements", "fm2prof/cross_section.py::CrossSection._check_remove_zero_widths", "fm2prof/cross_section.py::CrossSection._check_increasing_order", "fm2prof/export.py::Export1DModelData.export_volumes"]}
{"id": "C203", "title": "The 1D volumes in the volume file are those of the profile beside them", "statement": "In each row of the volume file the total volume of the 1D profile is the volume between the levels and total widths in the rows up to it, over the length of the cross-section.", "quantifier": "every map file, configuration and cross-section", "why_tests_cant": "The volumes are computed before the levels and widths are repaired; how far the repairs spread depends on all rows.", "anchors": ["fm2prof/cross_section.py::CrossSection.build_geometry", "fm2prof/cross_section.py::CrossSection.check_requirements", "fm2prof/export.py::Export1DModelData.export_volumes"]}
{"id": "C204", "title": "Simplifying a line by importance", "statement": "Simplifying a line of two or more points by a threshold gives points of the line in their order, and the first and the last point remain, whatever the threshold. A higher threshold gives some of the points of a lower one. The points that disappear are those that Visvalingam-Whyatt elimination removes first, as long as their importance is below the threshold. Simplifying to a number of points, two or more, is the same as simplifying by some threshold.", "quantifier": "every line of two or more points, every pair of thresholds and every number of points", "why_tests_cant": "The claims relate results for all thresholds to each other and to the whole course of the elimination.", "anchors": ["fm2prof/lib/polysimplify.py::VWSimplifier.from_threshold", "fm2prof/lib/polysimplify.py::VWSimplifier.from_number", "fm2prof/lib/polysimplify.py::VWSimplifier.build_thresholds"]}
{"id": "C205", "title": "ExtrapolateStorage matters for the flow part of the lowest points only", "statement": "Of two successful runs that differ in ExtrapolateStorage only, the volume files have the same 2D volumes, wet areas, total 1D volumes and, from the eleventh level on, flow areas. At the ten levels below, without the setting the flow area is the wet area; with it, it is the smaller one of the wet area and the flow area of the first map, and no 1D flow volume is larger than without. The definition files have the same levels and total widths, and flow widths that are not larger with the setting but for the small steps by which repeated widths are told apart.", "quantifier": "every map file, configuration, cross-section and optimiser result", "why_tests_cant": "The setting is used in one branch of a loop; what it leaves alone in the files depends on everything computed afterwards, for all inputs.", "anchors": ["fm2prof/cross_section.py::CrossSection.build_geometry", "fm2prof/cross_section.py::CrossSection._extend_css_below_z0", "fm2prof/cross_section.py::CrossSection.check_requirements", "fm2prof/export.py::Export1DModelData.export_volumes"]}
{"id": "C206", "title": "A later LakeTimesteps does not take water away", "statement": "Of two successful runs that differ in LakeTimesteps only, for a 2D model in which the water does not fall anywhere and in which a face that is wet at the later one of the two maps is wet at the earlier one, the run with the later map has the same number of levels at each location, and wet areas, flow areas and total 1D volumes that are not smaller at any level. From the first map on the flow areas are the same.", "quantifier": "every such map file, configuration, pair of maps, cross-section and optimiser result", "why_tests_cant": "Which faces are lakes depends on the depths at two maps, and for how long they are on all maps; the areas are sums over all faces.", "anchors": ["fm2prof/cross_section.py::CrossSection._identify_lakes", "fm2prof/cross_section.py::CrossSection.build_geometry", "fm2prof/cross_section.py::CrossSection._extend_css_below_z0"]}
{"id": "C207", "title": "A smoother 2D model does not give a rougher 1D model", "statement": "With polygons of the sections, when each roughness coefficient (Chezy) in the map file is replaced by one that is not smaller, and the same edges are dry at the same maps, a run that succeeded succeeds again; its roughness files for D-Flow 1D have the same blocks at the same levels, and no number in them is smaller than the number in its place before. An edge that was dry and gets a coefficient can lower the numbers.", "quantifier": "every map file, every other set of coefficients that is nowhere smaller, every configuration with the simple weighing and every cross-section", "why_tests_cant": "Compares two runs for all pairs of roughness fields; the mean over the wet edges, the table per section, the common levels of all cross-sections and the interpolation each have to keep the order.", "anchors": ["fm2prof/cross_section.py::CrossSection._build_roughness_tables", "fm2prof/cross_section.py::CrossSection._friction_weighing_simple", "fm2prof/cross_section.py::CrossSectionHelpers.interpolate_friction_across_cross_sections", "fm2prof/common.py::FrictionTable.interpolate", "fm2prof/export.py::Export1DModelData.export_roughness"]}
{"id": "C208", "title": "A larger SDFloodplainBase lowers the floodplain base level and nothing else", "statement": "Of two successful runs that differ in SDFloodplainBase only, the run with the larger value has the same definitions but for the floodplain base levels; those are not higher, and lower by no more than the difference of the two values.", "quantifier": "every map file, configuration, pair of values of SDFloodplainBase, and cross-section", "why_tests_cant": "Compares two runs for all pairs of settings; the base level is the lower one of a level below the crest and a mean of bed levels.", "anchors": ["fm2prof/cross_section.py::CrossSection._compute_floodplain_base", "fm2prof/cross_section.py::CrossSection.assign_roughness", "fm2prof/export.py::Export1DModelData._write_geometry_fm1d"]}

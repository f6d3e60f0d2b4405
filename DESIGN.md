# Formal model of metoppv/improver in Lean 4 — design

## 1. Approach

The codebase is Python/numpy/iris.  The proofs are about a *shallow* Lean model: one total,
computable Lean function per Python function, branch by branch, exceptions as `Except Err α` values,
loops as structural recursion or folds, mutation as returning the new state.  Each definition cites the
file and lines it models.

Conventions used throughout the model

* **Numbers.** Floats (`float32`/`float64`) are modelled by exact rationals `ℚ` (a few numerical
  formulae with roots/exponentials/trigonometry by `ℝ`).  Rounding, overflow and NaN propagation are outside the
  model unless a definition says otherwise.  Where the code has an explicit NaN/`None`/mask branch, the model has
  an `Option` or a `Bool` mask there.
* **Masked arrays.** A masked value is `Option ℚ` (`none` = masked) or a value paired with a `Bool`.
* **Arrays.** One-dimensional arrays are `List`; 2-D grids are functions on indices with explicit height
  and width, or lists of rows.  Code that works point by point through numpy broadcasting is modelled at one point
  (leading dimensions are independent in the code).
* **Cubes.** Only the metadata that affects the property is modelled (e.g. the inequality of a
  threshold coordinate, realization numbers, coordinate points, time bounds).  iris merging/slicing is trusted.
* **Randomness** (`np.random`) is a universally quantified parameter.
* **Stateful plugins** (attributes of `self` assigned in `process`) are state machines
  `step : State → Input → Except Err Out × State`.

Modules (`lean/Verif/`)

* `Basic.lean` — error type, list helpers modelling numpy primitives.
* `Model/*.lean` — the model only.
* `Spec/*.lean` — small independent specifications used by the property statements.
* `Lemmas/*.lean` — helper lemmas.
* `Props/*.lean` — property theorems and the non-vacuity examples beside them.  Nothing else.

## 2. Trusted base

* Lean 4.33.0 kernel; Mathlib definitions that occur in statements (`ℚ`, `ℝ`, `List.Perm`, `Finset.sum`, …).
* Axioms: only `propext`, `Classical.choice`, `Quot.sound` (checked by `#print axioms`, and by vcheck).
* The reading of the Python code into the model (no code was run): cited line by line.
* Semantics of numpy/scipy/iris primitives as written in the comments of the model
  (`np.interp`, `np.searchsorted`, `np.sort`, `np.lexsort`, `np.argsort`, `np.pad`, `np.cumsum`, `np.clip`, …).

Not modelled: floating point rounding; file I/O (`load`, `save`, CLI argument parsing through clize); iris metadata
equality and merging rules; optical flow (least squares, FFT), scipy minimisation in EMOS, LightGBM/treelite trees as
trained objects, statsmodels, pysteps semi-Lagrangian advection; parallel scheduling of numba loops.

## 3. Plan per property

| id | model | proof |
|----|-------|-------|
| C01–C03 | `Model/Threshold`: `truthValue` with `rescale` | case analysis, ordered-field arithmetic |
| C04 | fold over realizations with contribution counts | induction over realizations; compare with mean of the unmasked |
| C05 | constructor returning `Except` | sign case split; induction over list |
| C06 | state machine with `collapse_coord`, and units of the input cube | refuted by witness; partial theorem for non-percentile plugins |
| C07 | cube = (inequality, data, name direction) | case analysis, ring |
| C08 | slices chosen by closeness, difference × multiplier | list lemmas |
| C09–C11 | `lexsort`, `argsort` modelled by stable sort of index list; `choose` | permutation lemmas on sorts |
| C12, C18 | `linspace`; closeness check of numpy | algebra |
| C13–C15 | interpolation scan as written | induction on abscissae; loop invariant for the stateful scan |
| C16, C17 | state machines | refuted by witness; partial theorems |
| C19 | CDF differences × midpoints | sums, Abel summation |
| C20–C22 | weight lists | sums |
| C23 | `np.interp`, `np.sort` | monotonicity of interpolation |
| C24 | per-point weights over blend axis with rescale flags | sums |
| C25 | renumbering | list lemmas |
| C26, C27 | grids as functions, cumulative sums | telescoping double sums; shortcut analysed; refuted at domain edges by witness |
| C28 | forward/backward recursion on rows/columns | induction, convexity |
| C29 | `pad symmetric`/`slice` on lists | list/index lemmas; uniformity check refuted by witness |
| C30, C31 | while loop on bin list | well-founded recursion (termination is part of the model), invariants |
| C32 | searchsorted on bin edges | order lemmas, sums |
| C33 | interpolation with replaced end points, clip, sort across thresholds | monotonicity |
| C34 | fold of bin-wise sums, chain check of bounds | induction |
| C35 | `rescale` | field arithmetic |
| C36 | collapsed spatial thresholding of several coordinates | list lemmas |
| C37 | masking of percentiles, `np.clip` and filling | case analysis |
| C38 | linear weights with table extrapolation | interpolation lemmas; descending tables refuted |
| C39 | spatial blending weights | sums |
| C40–C41 | recursive filter with masks and halo, stateful coefficient cubes | witnesses for the leaks, induction |
| C42 | scaling of gradients to smoothing coefficients | field arithmetic, monotonicity |
| C43–C44 | decision tree: route enumeration, inverted condition chains, rerouting | induction over routes; inductive `Reaches`/`SkipReaches` walk as specification |
| C45 | sequential in-place replacement of night codes | list induction |
| C46 | operator-by-operator rewriting of expressions | invariant against left-to-right arithmetic |
| C47 | mode of day codes, replacement inside groups | counting lemmas, permutation invariance |
| C48 | sorted rates, subsets by forecast period, trapezoids | induction on windows of a regular series |
| C49 | folds of masked binary operations | induction, commutative folds; dimension check refuted for fewer dimensions |
| C50 | minimum/maximum of bounds | hull as specification |
| C51 | index permutation of a transposition | list/index lemmas |
| C52 | realization/time slices | membership, sortedness |
| C53 | levels as (height, value) pairs | fold lemmas; `find_lowest` refuted |
| C54 | attribute dictionaries | membership in both directions |
| C55–C58 | time list loop with the plugin's mutable list, linear interpolation, renormalised trapezoids, solar ratio | sortedness, telescoping sums; findings by witness |
| C59–C62 | lists of realizations; grids as functions with the scipy interpolator as an arbitrary function | folds; statements hold for every interpolator |
| C63–C66 | pointwise formulas, `np.interp`, threshold model of C01, table labels | case analysis, monotonicity, search lemmas |
| C67 | transitions on the edge-padded grid, neighbourhood sums of C27 | four-neighbour case analysis, window sums |
| C68–C70 | `reflectIdx` (scipy reflect mode), maximum over the window, `np.diff`-based spacing, distances | reflection stays in the clipped window, floor lemmas, list indexing |
| C71–C75 | integer times with numpy broadcasting; clipping; weights of C21 composed with the mean of C22 | case analysis, argmin induction, composition of C21 and C22 |
| C76–C77 | one column of (point, value) pairs; least squares on lists with NaN as `none` | loop induction; excess over the fitted line is a sum of squares |
| C78–C82 | pointwise adjustment; NaN-padded rolling windows as lists; slices of leading dimensions in C order; 1-D reading of the N-d interpolator | case analysis; window enumeration = grid neighbours; C77 |
| C83–C85 | neighbour search as sorted node lists, spot extraction by index, identifier lists | insertion sort order, argmin induction, list membership |
| C86–C90 | circular kernels with edge repetition; mean-padded windows as lists; np.percentile by sorted lists; loop over slices; np.interp for radii | box geometry (omega), sums over offsets, window enumeration of C79, interpolation lemmas |
| C91–C99 | advection on rows and columns with truncation towards zero; orographic enhancement; speckle filling over the reals; lightning probabilities per point; optical flow: derivatives, boxes, 2x2 solution, smoothing iterations, checks | bilinear algebra, window counts, weighted means by induction over iterations, completing the square for least squares, mergeSort lemmas |
| C100–C107 | `Model/Regrid.lean`, `Model/LandSea.lean`: slicing, indexes with boundary adjustment, weights, nearest points, land mask searches, axes order, adjustment of land and sea points, cutout check, attributes | `Props/Regrid*.lean`, `Props/LandSea.lean`: cell of every target by arithmetic on flattened indexes; argmin and sorting lemmas; induction over attribute lists |
| C108–C118 | `Model/Wind.lean`, `Model/WindDown.lean`: complex conversion, mean direction with fallbacks and the kept list, gusts, components, updraught, downscaling of one column, dimensions, coordinate names | `Props/WindDirection.lean` (complex argument, lexicographic order), `Props/Wind.lean`, `Props/WindDown.lean` (real logarithm and exponential, interpolation by position) |
| C119–C124 | `Model/NormDist.lean`, `Model/Crps.lean`, `Model/Emos.lean`: standard normal density and distribution function, the two CRPS formulas with their guards, flattening, initial guess, minimisation per point, location and scale parameters | `Props/NormDist.lean`, `Props/CrpsCore.lean` (improper integrals of Gaussian tails), `Props/Crps.lean`, `Props/Emos.lean`, `Props/EmosApply.lean` (independent specification `Spec.crps`, `Spec.location`, `Spec.spread`) |
| C125–C130 | `Model/CalUtil.lean`, `Model/EmosOutput.lean`: compatibility checks, matching by time, reference times, amount of data; scipy frozen norm and truncnorm (cdf, sf, ppf), percentiles, probabilities, land-sea merging, types and attributes | `Props/CalUtil.lean`, `Props/CalMatch.lean`, `Props/EmosOutput.lean` (law of the distribution as a Mathlib measure, conditioned for truncation), `Props/EmosResult.lean` |
| C131–C141 | `Model/Bias.lean`, `Model/Dz.lean`, `Model/ProbName.lean`, `Model/CalSplit.lean`: additive bias, its application and checks; rescaling for vertical displacement; the regular expression for probability names as a lazy matcher on character lists; sorting of cubes by role | `Props/Bias.lean` (mean and least squares by induction), `Props/Dz.lean` (exact line has zero residual; monotone exponentials; ordered search), `Props/ProbName.lean` (no earlier match: overlaps of the finitely many words by kernel computation, unbounded part by induction on the name), `Props/CalSplit.lean` (groups are classes, by induction on the inputs) |
| C142-C148 | Model/Psychro.lean: Goff-Gratch formulae over the reals, table and lookup, saturated humidity, adiabats, latent heat with the root finder as a parameter, the vectorised wet bulb loop with its parallel arrays, slicing | growth bounds of the two formulae, monotonicity interval by interval (union of 900 intervals by induction), loop invariant that each array is the image of the active indices |
| C149-C152 | Model/PhaseLevel.lean: each step of PhaseChangeLevel per column over the reals, horizontal filling on n points with griddata as a parameter | interval integrals of the positive part of a line; induction on the column; case analysis of the fills |
| C153-C158 | Model/Hail.lean, Model/FeelsLike.lean: table lookups, cloud top loop, condensation level, feels-like formulae, surface phase, masks, UV index | bounds and monotonicity of tables by decide over the whole finite table, induction on levels, real inequalities |
| C159-C160 | Model/TopoZones.lean: zone weights loop, band masks, land mask correction at one point over ℚ | induction on the bands, uniqueness of the band of a height, closed form of the shares |
| C161-C165 | Model/Solar.lean: datetimes as microseconds, solar geometry, day-night mask, clear sky irradiance and radiation over ℝ | trigonometric identities (terminator as sin(lat - T)), arcsin/arccos, induction for the trapezium sum |
| C166–C168 | Model/OrogEnh.lean, Model/Convection.lean: point enhancement, upstream distances, source positions and weights of orographic_enhancement.py over ℝ; convection ratio and make_shower_condition_cube over ℚ | case analysis on the mask; sums over slots rewritten as Finset sums, weighted-mean bounds; rounding of whole numbers; list induction for cube selection |
| C169 | Model/Compare.lean: compare.py on trees of groups (mutual inductive), reports as a list | no report iff agreement at every path, by mutual structural induction |
| C170-C171 | Model/Standards.lean: units as dimension plus linear map, numpy types, file system steps (create, append, rename) | invariant over the stages of a save preserved by foreign steps; case analysis on the time coordinate table; nearest-even rounding characterised |
| C172-C173 | Model/Lightning.lean: thresholds by latitude over rationals, USAF regression over reals | clipping of a straight line; bounds on log 0.7 and log 0.31 from the exponential series, Bernoulli inequality to compare the two regressions |
| C174, C175 | `utilities/cube_extraction.py` constraint reading, extraction, thinning and level filling | axes with any number of points, tests, unit scales; induction over axes and columns |
| C176-C178 | `metadata/amend.py`, attributes of `metadata/utilities.py`, `utilities/copy_attributes.py`, `utilities/flatten.py`, `utilities/common_input_handle.py` | texts as lists of characters, the two regular expressions and `str.format` read as functions on them; nested collections as trees; induction on texts, dictionaries and trees |
| C179-C182 | `utilities/cube_checker.py`, `utilities/mask.py`, `utilities/load.py` | cubes as named dimensions with data by index (reusing the C51 model of transposition); scalar promotion, `np.insert`, `np.ma.array` shape rules as functions; induction on lists of dimensions and permutation arguments |
| C183-C185 | `blending/calculate_weights_and_blend.py`, `blending/utilities.py`, model coordinates of `blending/weighted_blend.py` | slices as (blend point, values) with the weights of C20/C21/C38; records as texts, character by character, with decimal formatting and parsing; metadata as names, times and dictionaries; permutation and induction arguments on lists |
| C186–C189 | `Model/RainForests.lean`: decision trees, bins, sorting and filling of rows, monotone probabilities, interpolation, feature alignment of rainforest_calibration.py | C186: maxAcc gives the last predicted row with the same bins, argsort is the inverse of the lexsort; C187: greatest and least of tails and heads; C188: antitone interpolation, polyline specification; C189: nearest element, sorting by distinct names |
| C190–C192 | `Model/Assembly.lean`: nowcasts with pysteps (any extrapolation), the cube of spot data by shapes, standardisation of cubes with named axes | C190: Forall₂ over steps, using C92 for the enhancement; C191: dimension by dimension; C192: filters and maps |
| C193–C197 | Model/Dataframe.lean models calibration/dataframe_utilities.py: tables as lists of rows; training dates, selection and checks, filling of missing rows (forward then backward fill), consistency of static columns, matching of the two tables and the building of spot cubes. | C193/C194 by the filter predicates and floor arithmetic; C195 by induction over the fills, with uniqueness of keys; C196 by induction over first-seen values; C197 composes them: forecast and truth cubes have the same sites, in the same order, for the same times. |
| C198–C200 | Model/Rename.lean: update_diagnostic_name with text replacement as Python does it, cell methods and their comments, radius of vicinity. | C198 from lemmas on replacement of text occurring once and on joins of vicinity words, with the regular expression of C137; C199 by induction over cell methods; C200 by the filters on coordinates. |
| C201–C203 | Model/Interpreter.lean: MOMetadataInterpreter.run with all its checks in order, errors accumulated or raised as in the code, and the interpret-metadata command. Data types are a flag of the cube (C192); warnings and printed texts are left out. | One lemma per check gives the condition for no error; C201 puts them together; C202 by the inverse of split and join; C203 by induction over cubes. |
| C204–C209 | The check of decision trees (categorical/utilities.py), the choice of inputs, coincidence of times and the reference times of ApplyDecisionTree | Model/TreeCheck.lean, Model/TreeInputs.lean: each check has a lemma relating it to the specification; acceptance by congruence; every point gets a category by well-founded induction on the finite acyclic graph; inputs by turning the fold over the tree into a list of independent requests |
| C210–C213 | Brackets, nested commands, converters and output of the command line (cli/__init__.py), titles of results | Model/Cli.lean: the loop with a stack is inverted by writing nested commands with brackets (mutual induction); execution is structural recursion over nested commands with an arbitrary dispatcher and state, its calls are counted by a logging dispatcher |
| C214–C216 | `Model/NbLandSea.lean`: the command nbhood-land-and-sea for one slice: masks of the surfaces, choice of radii, neighbourhoods, zones, sum of the two parts | exactness of the neighbourhoods (C27, C86) over the points of one surface; the other part is masked there | 
| C217–C219 | `EnsembleReordering.process` with masks, `generate-realizations`, `generate-percentiles` | Model/EccRun.lean on top of Model/ECC, Interp, NbhoodMore; the command branches as functions of the input kind, the reordering with mask flags moved by `choose`; proved from C12–C18, C37, C87, C88 |
| C220-C224 | Whole runs of the EMOS calibration: the metadata of the coefficient cubes and the checks at application; the checks before the estimation; warnings of the minimisation; the branches of the command; the way of realizations through calibration | Composition of C124-C130, C09-C12 with the new definitions; case analysis on the checks; percentiles by the distribution functions of C128 |
| C225-C227 | `SpotManipulation` as a whole: extraction at the neighbours, collapse of members, percentiles (four ways), lapse rates, subsetting of spot forecasts, warnings | The run is split into steps and followed site by site (Forall₂); percentiles by C13, C14 and the order of `npPercentile`; sites by C84, C85 |
| C228–C230 | Model/ReliabilityRun: construct, manipulate and apply as whole runs over lists of forecasts, points and thresholds | mapM inversion, pooled-bin means in order by induction on the merged groups, sorting is monotone in the columns |
| C231–C235 | Model/LapseRun, HailRun, Merge: the commands with their unit conversions, extraction by name, insertion of a dimension, merging by one coordinate and merging for blends | open the do block, transposition lemma, permutation and sortedness of insertion sort, mapM inversion |
| C236–C237 | Model/RefRun: the commands that bound a forecast by a reference and normalise fields, on lists of named cubes with units | filter of the list by name, then C73/C74 pointwise; sums over runs by Forall₂ |
| C238–C239 | Model/AdjRun, Model/HeightRun: blending adjacent points from files (merge of C234, unit of the options, central slice), height adjustment of spot cubes with units and neighbour methods | C75 per grid point and C234 for the merge; C82 per site, mapM over members and sites |
| C240–C242 | Model/PrecipRun: roles of cubes by words in names, units and directions for freezing rain, snow fraction, snow splitter, visibility with cloud base | filter over permutations gives the same single cube; C59, C60, C61, C65 per point |
| C243–C244 | Model/RfRun: RainForests configuration (dictionary with number keys, class, file names, splits of model files) and the whole of process and its command | dictionary folds by induction, permutations of sorted tables; C186–C189 for the parts |
| C245, C246 | `Model/BiasRun.lean`: `CalculateForecastBias.process` composed from matching (C126), consistency (C127), additive error (C131) and the reference time of the cube; the product as input of C133 and of the splitting of input files. | Success characterised from the parts; values as mean over the used forecasts, zero mean error by summation. |
| C247, C248 | `Model/OrogCoeff`: the whole `OrographicSmoothingCoefficients.process` on fields with either order of dimensions; chained with `Model/RecursiveFilter` | extremes over all steps as `IsLeast`/`IsGreatest` of a set of steps; chained with C28 |
| C249 | `Model/LevelRun`: the whole `ExtractLevel.process` on arrays with any order of dimensions; the interpolation of a column is a parameter | columns of the filled array are the filled columns (C175); filling determined uniquely by its specification; positions by case analysis on the dimension order |
| C250 | `Model/HailSizeRun`: `HailSize.process` with extraction by name, checks, unit conversion and broadcasting, on top of `Model/Hail` | extraction through permutations; values by C153 |
| C251 | `Model/PhaseRun`: `WetBulbTemperatureIntegral.process` and `PhaseChangeLevel.process` (names, units, model identifiers, order of levels, highest height) on top of `Model/LapseRate` and `Model/PhaseLevel` | integral by C76, level by C149-C151, extraction through permutations |
| C252 | `WeightedBlendAcrossWholeDimension.process` on cubes with named dimensions of any number and order (Model/WholeBlend), means and percentiles | values at named places: sorting, reordering and laying out the weights keep places; ranks equal indices of equal points; permutation invariance of the mean and of the percentile blend |
| C253 | `CubeCombiner.process` on cubes with named dimensions: preparation for broadcasting, comparison of dimensions, numpy broadcasting of arrays, slices over realizations, expanded bounds and cell methods (Model/CombineRun.lean) | induction over the further cubes with the dimensions and points of the first kept; placewise values through `reorder_all`; metadata as an equivalence; counterexamples for realizations and reuse (Props/CombineRun.lean) |
| C254 | `Threshold.process` on cubes with named dimensions: filling, units, slices over realizations, merging of the template over thresholds and radii, vicinity over the last two dimensions, squeezing and ordering (Model/ThresholdRun.lean) | places carried through squeezing and ordering (`squeezed_at`, `reorder_at`); the mean by induction over the slices; the vicinity through C68; counterexamples by evaluation (Props/ThresholdRun.lean) |
| C255 | `OccurrenceWithinVicinity.process` on cubes with named dimensions: slices, merging over the other dimensions and over radii, ordering, names, land masks as arrays (Model/VicinityRun.lean) | places before and after merging linked by their labels (`argsort_index`); the values through C68 (Props/VicinityRun.lean) |
| C256 | `ShowerConditionProbability.process`: choice of inputs by name, two runs of `Threshold` (Model/ThresholdRun), combination of arrays by position, mean over realizations, squeezing (Model/ShowerRun.lean) | C254 for each input, then places through slices and squeezing; the mean by induction over members (Props/ShowerRun.lean) |
| C257 | `ExtractValueFromTable.process`: choice of the row cube, reordering in place, comparison of shapes, table made from nested dictionaries (Model/TableRun.lean) | places through `reorder_at`; labels by C66_index on the sorted labels |
| C258 | `NeighbourhoodProcessing.process`: radius, checks, slices over (y, x), masks by position, merging with any order of the other dimensions (Model/NbRun.lean) | places through slicing and merging; C27, C86 for one slice |
| C259 | `ChooseWeightsLinear.process`: table by model, unit conversion of table points, interpolation, merging in any order of models, normalisation per point (Model/LinWeightsRun.lean) | C38_ascending_table through an increasing affine conversion; C20_normalise_iff per point |
| C260-C262 | `CloudTopTemperature.process`, `HumidityMixingRatio.process`, `MetaCloudCondensationLevel.process`, `WetBulbTemperature.process`: extraction by name, units, arrays, levels (Model/MoistRun.lean) | cctLoop_pointwise / C147_pointwise at the number of each point of the array; C155; insertion sort for the merge of levels |
| C263 | `MaxInTimeWindow.process` and `Combine.process` without minimum realizations (Model/WindowRun.lean on Model/CombineRun.lean) | C253_result and C49_values; hull of bounds from expand_bounds |
| C264 | `GeneratePercentilesFromANeighbourhood.process` on named dimensions (Model/PercNbRun.lean) | C179_order for the arrangement, C87 for the values |
| C265, C266 | `remove_cube_halo` and `MetaNeighbourhood` on named dimensions (Model/HaloRun.lean on Model/NbRun.lean, Model/Pad.lean) | C51_ordering and C69_cells for the trimming; C258 for the neighbourhoods |
| C267 | `ExpectedValue.process` on named dimensions (Model/EvRun.lean on Model/ExpectedValue.lean, Model/ECC.lean) | integrate_place at each place; C12 for the percentiles |
| C268 | `generate_metadata` and the functions that set up cubes (Model/Synthetic.lean) | characterisation of the coordinates as equivalences (C268_grid, C268_times, C268_dimensions), then composition |
| C269 | `nowcast_accumulate` as a whole: extrapolation, accumulation on fields with masks, merge (Model/NowcastAccum.lean) | the nowcasts as a series of minutes (C190), induction over the window for the masked sum, composition |
| C270 | `StandardiseMetadata.process` as a whole on cubes with named axes (Model/StandardiseRun.lean) | coordinates by induction over the dictionary of modifications (distinct names), idempotence of each step composed; repetition refuted for attributes with {} |
| C271 | `generate_advection_velocities_from_winds` and its command: ordering, extrapolation (C190), enhancement, optical flow (C99), sum (Model/SteeringFlow.lean) | composition of C190 and C99; the time of the perturbation by cases on whole minutes |
| C272 | `RoughnessCorrection.process` and the wind-downscaling command on cubes with named axes, correction of a column a parameter (Model/DownscaleRun.lean) | places by name, argsort of merged members and times; instance with the Howard and Clark column of C115-C117 for non-negativity |
| C273 | `DayNightMask.process` on whole cubes and apply-night-mask, day or night of a point a parameter (Model/NightMask.lean) | numpy fitting by trailing dimensions, places by name; findings by witness |
| C274 | `GenerateClearskySolarRadiation.process`, `GenerateSolarTime.process` on whole grids (Model/SolarRun.lean); latitudes and longitudes of the grid are given | numpy fitting of shapes, then the point results of C161 and C165; findings by witness |
| C275 | `AdjustLandSeaPoints.process` with the `lru_cache` of `_get_matches` as state shared by all plugins, over histories of calls (Model/LandSeaRun.lean) | invariant: entries of the cache for the plugin are right for the call; then C105 |
| C276 | `RegridLandSea` and the regrid command with the regridders as parameters (Model/LandSeaRun.lean) | case analysis over all mode texts |
| C277 | the nowcast-optical-flow command: sorting, removal of the enhancement, flow of each pair, mean and time (Model/FlowCommand.lean) | results of the sort and of mapM by index, C98/C99 for each pair |
| C278 | blend-cycles-and-realizations on fields of optional values (Model/CyclesBlend.lean) | equal weights by computation of the linear weights, then C183_blend |
| C279, C280 | Model/DirectionInterp.lean: directions as reals, their unit vectors as complex numbers, the inputs after the run; the command orders its inputs and builds a fresh plugin | C279 by the sine of the difference of angles; C280 from C55/C56. |
| C281 | `spatialBlend`, `spatialPoint`, `spatialInput`, `templateMask` | weights of the spatial weighting (C24) put into the blend (C183); keep/zero weights by permutation; cases of the first mask |
| C282 | `BlendArgs`, `blendArgsCheck`, `blendArgsMethod`, `blendCommand`, `vicinityBlendCommand` | case analysis of the checks; closed forms from C21/C183 with the place in the sorted points = number of points below; scale invariance of weighted means |
| C283 | Model/OrogGradient.lean: sorting to ascending y, x; three-point smoothing with reflected edges; differences over the grid spacing; linear regridding with extrapolation; link to the point enhancement | closed form of the composed operation on any sampled surface (Spec.heightsOn covers all eight layouts); quadratic exactness, affinity, bounds and zero enhancement follow |
| C284 | Model/SiteCheck.lean: the two site checks, the pairing of predictors by position, extraction of sites for estimation from a table | acceptance characterised as equality of identifier lists; pairing by uniqueness of identifiers; refutations by concrete reordered sites |
| C285 | Model/ModeRun.lean: merging along time, one period length, collapsed bounds, time at the end, latest cycle, forecast period, models | least and greatest characterised by membership and bound; order independence by uniqueness of sorted permutations |
| C286 | Model/EmosSites: guesses, minimisation and storage of coefficients for sites and grids (ensemble_calibration.py:393-480, 794-825, 889-947, 1155-1213) on top of `pointByPoint` | index calculation: truth number i meets predictors number σ i and variance number i; grids by division with remainder |
| C287 | Model/OrogLevel: `extract_and_check` and the comparison of the inputs (cli/orographic_enhancement.py:12-42, 90-106, wind_components.py:195-212, orographic_enhancement.py:543-557) | the filter over the levels is a singleton exactly when one level passes; equality of the extracted coordinates |
| C288 | Model/DistanceRun: the choice of the calculator and both calculators with their arrays and axes (spatial.py:155-486) on top of Model/Spatial | evenly spaced axes stay so when scaled; `npDiff` by index; the sum of the differences of a circular row telescopes to 360 degrees |
| C289 | Model/LaggedRun (command on TimeLag: validity check, cycle, forecast period and bounds, members) | characterisation of the run by latest cycle and sorted members; permutation and stepwise by uniqueness of sorted lists |
| C290 | Model/TableSum (table cubes with named dimensions, masks, other coordinates; merge, collapse, reference time) | places along dimensions as lists without repetition characterised by membership; sums with masks determined by emptiness and total, hence invariant under permutation and nesting |
| C291 | Model/GridHalo (padded coordinates with bounds, zeros, name) | number of cells bounds the radius on both sides; axes extended then trimmed compose to the identity through C29 and C265 |
| C292 | Model/AdvectLayout (cubes as named dimensions with lengths, optional coordinates, data by index) | checks characterised by sublists of dimensions; C91 cell formula specialised to whole displacements, read through the names of the dimensions |
| C293 | Model/GenMeta (options and JSON as records, coordinates as a dictionary; reading of cycle times a parameter) | combined request as a relation; composed with C268 for each kind of first dimension |
| C294 | Model/SpotMeta (coordinates with own named dimensions, points by position; attributes as dictionaries) | values at cells named by dimension compared with reading by position; dictionary lookups |
| C295 | Model/TimeExtract (times in seconds, cells with bounds, cubes as lists of slices) | floor division by 3600 against hours of the clock; induction over the list of cubes |

(The table is extended as the model grows; see section 5 for findings.)

## 4. How statements are kept honest

Property theorems are stated against `Spec/*` definitions (e.g. "mean of the unmasked", "window sum") or
plain Mathlib notions (`List.Perm`, `≤`, `∑`).  Each theorem has an `example` beside it instantiating the
hypotheses.  `seeded/LOG.jsonl` records mutation experiments on scratch copies of the model
(`tools/mutate.py` runs them in /tmp/mut).

## 5. Findings (places where the code does not have the property)

Those with a theorem are named; the others were met while modelling and are described in the comments of the model.

* Threshold: one-sided fuzzy bounds are accepted by the constructor but always raise ValueError in `process`; a configuration that
  mixes `None` bounds drops bounds or raises AttributeError; a plugin with `collapse_coord="percentile"` cannot be reused; the input
  cube is converted in place when `threshold_units` is given without collapsing, and `fill_masked` and Rebadge alter their input.
* `invert_probabilities` misnames diagnostics whose own name contains "above".
* Fast and slow interpolation differ on tied abscissae; a 0th percentile present in the forecast is resampled to the ECC lower
  bound (`C13_zeroth_percentile_refuted`).
* RebadgePercentilesAsRealizations fails after overwriting the input's points when a realization coordinate exists.
* ConvertLocationAndScaleParameters for truncnorm: a second call is wrong (C16). Rank ECC with several times: TypeError (C17).
* ChooseWeightsLinear: descending configuration tables swap the extrapolation values (`C38_descending_table_refuted`).
* Non-linear weights with `inverse_ordering` are always in ascending coordinate order.
* Weighted blending never compares the points of the weights cube with those of the data (`C22_points_not_checked`), and
  `WeightedBlend` overwrites `self.blend_coord` in `process`.
* Percentile blending of identical inputs with tied values changes them (`C23_ties_refuted`).
* SpatiallyVaryingWeights: where all contributing slices are rescaled the weights sum to less than 1 (`C24_deficit_refuted`).
* Square neighbourhood: the `extreme = 1` shortcut pads ones beyond the domain edge (`C27_edge_refuted`).
* `pad_coord`: its uniformity check telescopes (`C29_uniformity_refuted`).
* RecursiveFilter: no check for negative coefficients; masked values leak through the halo (`C40_halo_leak_refuted`); masked input
  overwrites the caller's coefficient cubes (`C41_coefficients_overwritten_refuted`).
* Orographic smoothing coefficients: uniform gradient magnitude gives NaN (`C42_uniform_gradient_refuted`).
* Reliability tables: the mask depends on the order of times (`C32_mask_order_refuted`), forecasts outside [0, 1+1e-6) are silently
  discarded; aggregation accepts only chronological order (`C34_order_refuted`) and appends to the caller's coordinate list;
  single-threshold forecasts fail in the application (`C33_single_threshold_refuted`).
* Decision tree: a node with equal branches leaves its points masked (`C43_same_branches_refuted`), reachable by rerouting
  (`C44_masked_refuted`); rerouting persists on the plugin and in the caller's dictionary (`C44_reuse_refuted`); a leaf as start node
  raises IndexError (`C43_leaf_root_fails`); chained night codes depend on order (`C45_chain_refuted`); `a - b + c` evaluates to
  `a - (b + c)` (`C46_add_after_sub_refuted`).
* Accumulation: incomplete periods are silently accumulated (`C48_incomplete_refuted`); period and forecast periods stick to the
  plugin after the first call (`C48_reuse_refuted`).
* CubeCombiner: cubes with fewer dimensions pass the check and are broadcast along the wrong axis (`C49_fewer_dimensions_refuted`);
  `Combine` keeps the name of the first call (`C49_name_reuse_refuted`).
* `height_of_maximum`: `find_lowest` is exchanged (`C53_find_lowest_refuted`). `compare_attributes` of a single cube gives an empty
  list (`C54_single_cube`).
* TemporalInterpolation: divisibility modulo one day (`C55_day_refuted`); the list of times grows with every call
  (`C55_reuse_refuted`); dry accumulations become NaN (`C57_dry_refuted`); input cubes are turned into rates in place
  (`C57_inputs_changed_refuted`); solar interpolation over one day divides by zero, and across sunrise can be negative
  (`C58_one_day_refuted`, `C58_twilight_refuted`).
* FreezingRain: divides by the number of realizations of the rain cube before matching (`C59_subset_refuted`).
* `maximum_within_vicinity`: for integer data `-fill_value` is the largest value, so masked points and points across the coast
  dominate (`C68_integer_refuted`).
* Gradients on projected axes that run downwards have the wrong sign (`C70_descending_refuted`).
* Forecast period bounds with several reference times are computed along the wrong axis or fail (`C71_bounds_refuted`).
* EnforceConsistentForecasts converts the caller's reference cube in place.
* Integration: `if start_point:` ignores a start (or end) point of zero (`C76_zero_refuted`).
* ApplyGriddedLapseRate: slices are paired by position, so cubes with the same leading dimensions in a different order (or a lapse
  rate cube with an extra dimension) are silently mispaired (`C80_order_refuted`).
* SpotHeightAdjustment: beyond the highest threshold the greatest probability is used whatever the direction of the thresholds, which is
  wrong for "above threshold" probabilities (`C82_above_refuted`).
* NeighbourSelection: a land constraint on a grid without land fails instead of falling back to the nearest point (`C83_no_land_refuted`).
* `create_coordinate_hash`: `isinstance(coord.bounds, list)` is never true, so cell bounds are not compared (`C84_bounds_refuted`).
* ApplyNeighbourhoodProcessingWithAMask: `np.array_equal` ignores masks, so slices with equal underlying data share a result although their masks differ (`C89_mask_refuted`).
* Neighbourhood radii by lead time: the radius becomes an array, and a cube with several forecast periods always fails (`C90_several_periods_refuted`).
* AdvectField: between the outermost grid point and the edge of the domain values fade to 0 (`C91_edge_refuted`); a missing neighbour with weight 0 masks a point (`C91_zero_weight_refuted`).
* ExtendRadarMask replaces the existing mask instead of extending it (`C93_extend_refuted`).
* NowcastLightning: a lightning rate of 0 raises the probability to 0.25 because the threshold of risk 2 is 0 and compared by `>=` (`C95_no_lightning_refuted`); the result of the neighbourhood plugin is discarded (`C95_smoothing_refuted`); several output times always fail (`C95_several_times_refuted`).
* Regridding: a target within the tolerance of np.isclose below the last latitude or longitude is interpolated in (or picked from) the row of cells before its own, so bilinear-2 extrapolates over a whole grid length (C100_close_refuted, C101_close_refuted).
* Regridding with a mask: the result of a target depends on the other targets of the call because the source is sliced to their domain first (C102_domain_refuted).
* Bilinear regridding with a mask: a masked or NaN source point with weight zero makes the target missing (C103_missing_refuted).
* Regridding: cubes whose longitude is the first dimension are flattened in the wrong order, and cubes whose spatial dimensions are not the last two get their coordinates on the wrong dimensions (C104_order_refuted).
* Regridding: `if point_lat_lon_max_index:` (bilinear.py:165) raises ValueError when several targets are at the last corner and is false when the corner target is the first of those on the last latitude (the two later adjustments then have the same effect).
* complex_to_deg: the remainder is computed in 32 bits, so an angle just below 0 gives 360 although the documentation says [0, 360) (`C108_f32_range_refuted`).
* WindDirection: `wdir_cube_list` is never emptied: using a plugin again fails or returns the slices of earlier calls (`C110_reuse_refuted`, `C110_stale_refuted`).
* WindGustDiagnostic: times are compared with `zip`, so wind speeds of one time are accepted for any number of gust times (`C111_times_refuted`).
* ResolveWindComponents changes the direction cube of the caller in place; a second call gives the opposite wind (`C112_repeat_refuted`).
* RoughnessCorrection: the roughness length of sea points is filled in place after the mask is computed, so a second call treats them as land (`C118_repeat_refuted`); a time dimension of length one fails (`C118_single_time_refuted`); a cube with both vertical coordinates has a run dependent vertical coordinate (`C118_vertical_name_refuted`).
* RoughnessCorrection: above the top level winds are extrapolated with the slope from the lowest to the highest level (`C116_extrapolation_refuted`); levels in decreasing order are interpolated wrongly (`C116_decreasing_refuted`); a roughness length above the reference height turns the profile upside down (`C115_upside_down_refuted`).
* EMOS training: cases whose predicted spread is zero at a positive location are left out of the score (`C119_spreadless_ignored_refuted`); the truncated normal option returns NaN instead of 999999 when nothing has spread, its -3 limit is inert because of `or`, and its formula is not the CRPS for negative observations (`C120_no_spread_refuted`, `C120_ratio_limit_refuted`, `C120_negative_observation_refuted`).
* EMOS: with a land mask, an observation missing at one time makes flattening fail; two-dimensional arrays with differing masks are flattened with values moved between rows (`C121_missing_truth_refuted`, `C121_two_dimensions_refuted`).
* EMOS: the regression guess of the realizations option omits the square root (`C122_realizations_regression_refuted`); two sites at close coordinates make point by point training fail (`C123_close_sites_refuted`); a static predictor with the name of the forecast is mispaired with its coefficient (`C124_duplicate_name_refuted`); a single realization gives NaN scale (`C124_scale_single_refuted`).
* EMOS: coefficients of a grid with other points but the same outermost points are accepted; for spot forecasts sites are not compared at all, coefficients are applied by position (`C125_resolution_refuted`, `C125_sites_refuted`).
* filter_non_matching_cubes: an instantaneous forecast matches every period containing it, both ends included, so one forecast time can be returned with two truths; a period forecast with instantaneous truths raises TypeError (`C126_contained_refuted`, `C126_unbounded_truth_refuted`).
* check_data_sufficiency: combines the NaN masks by "and", so missing truths alone never count (`C127_one_missing_refuted`).
* ConvertLocationAndScaleParametersToProbabilities converts the scale with `convert_units`: kelvin to celsius subtracts 273.15 from the standard deviation and all probabilities are NaN (`C129_celsius_refuted`); zero spread gives NaN probabilities but finite percentiles (`C129_spreadless_refuted`), possibly outside the truncation limits (`C128_spreadless_refuted`).
* A single bias cube with masked values is filled in place when `fill_masked_bias_values` is set (`C133_bias_overwritten_refuted`).
* Vertical displacement rescaling pairs values by position although each cube keeps its own site order (`C134_order_refuted`).
* A rescaling factor of exactly zero with default (infinite) bounds makes every scaled displacement NaN (`C135_zero_factor_refuted`): 0 * inf.
* ApplyDzRescaling overwrites its input forecast (`C136_twice_refuted`).
* The probability name expression is not anchored at its end, so text after a threshold word is dropped (`C137_trailing_refuted`).
* split_forecasts_and_coeffs silently ignores the first of two forecasts that are not probabilities (`C140_two_forecasts_refuted`); three or more end in UnboundLocalError.
* calculate_svp_in_air clips the temperature for the table lookup but not for the pressure correction, so below 183.15 K saturated humidity increases as the air gets colder (C144_below_table_refuted).
* WetBulbTemperature._slice_inputs zips the level slices of its inputs by position without comparing level values or counts (C148_level_values_ignored_refuted); and when one of the inputs has no vertical coordinate it does not raise even if the others have differing ones (C148_whole).
* PhaseChangeLevel.fill_in_sea_points tests `np.all(sea_points is False)`, which is always false, so the early return is dead code (harmless).
* PhaseChangeLevel takes the first five stored wet bulb levels for its fit and, without bounds, the last stored level as the highest: with levels stored from the top down the fit uses the top of the profile and the highest height is the lowest (C152_highest_descending_refuted).
* HailSize.updated_hail_size reduces hail when the wet bulb zero is at or above 3300 m but its table starts at 3350 m: in between, `bisect_right - 1` is -1, the last row, so the hail vanishes and reappears from 3350 m (C153_gap_refuted, C153_gap_example).
* The feels-like temperature is not monotone in temperature across the blending range: dry air in a 40 m/s wind feels colder at 20 C than at 10 C (C156_temperature_refuted).
* Topographic zone weights: a point exactly at the lowest bound of the lowest band is in no band and gets no weight, yet the warning tests `<` and is not raised; gaps between bands are not noticed either (C159_lowest_bound_refuted, C159_gap_refuted).
* DayNightMask.process takes the bounds of `cube.coord("time").cell(0)` inside the loop over time slices, so with bounded times every slice is masked for the first time (C163_bounded_times_refuted).
* A day-night mask on a latitude-longitude grid counts the sun exactly on the horizon as day while the declination is positive (`>=`), other grids count it as night (`> 0`): C163_lat_lon, C163_projected.
* orographic_enhancement.py:301-314 with a grid spacing above 15 km (and for oblique winds above 10.6 km) the number of source points is zero, the sum of weights is zero and the result is NaN at every windy cell (C167_coarse_grid_refuted).
* precipitation_type/utilities.py:43-58 with in_place=True a call that raises has already renamed the cube passed in (C168_failed_call_renames).
* utilities/compare.py:208-266 the dimension names of a variable are never compared, so two variables on transposed dimensions of equal size compare as equal (C169_dimension_names_refuted); a scalar compares equal to a constant array.
* utilities/compare.py:307-329 an attribute that is NaN is reported as different from itself (C169_nan_attribute_refuted).
* save_netcdf names its temporary file after the target: two processes saving the same target can interleave so that neither content results (C170_same_target_refuted).
* save_netcdf compares only the first two dimensions of the cubes before choosing chunk sizes from the first cube, so chunks can exceed the dimensions of later cubes (C170_chunks_refuted).
* round_close passes atol=1e-7 to np.allclose but leaves rtol at 1e-5: any value beyond about 50000, hence every time in seconds since 1970, is accepted and silently rounded whatever its fraction (C171_large_refuted).
* LightningMultivariateProbability_USAF2024: the probability falls from over 0.3 to under 0.06 when CAPE rises from 0 to 0.1 J/kg with a lifted index of 0 and an inch of rain (C173_cape_refuted).
* C174: create_sorted_lambda_constraint widens a range by multiplying its ends by 1 ∓ 1e-7, which moves negative ends inwards, so [-5:10] excludes -5.
* C174: a range with a step that keeps exactly one point raises ValueError, and an unmatched one raises AttributeError even with ignore_failure.
* C175: a gap between valid levels can be filled with values out of order.
* C176: amend_attributes: a value with two "{}" raises IndexError (changes before it stay); so does "{now:..} {}", because the greedy regular expression takes both fields; of two "{now:..}" on one line the first is lost.
* C176: CopyAttributes passes template values through amend_attributes, so "remove", "{}" and numbers are not copied as they are.
* C177: create_new_diagnostic_cube updates the mandatory_attributes dictionary of its caller.
* C179: check_cube_coordinates inserts exception dimensions one by one in the order given: in another order than that of the dimensions this raises IndexError or moves them.
* C180: apply_mask reorders and inverts the mask cube of its caller in place; with invert_mask a second call with the same mask masks the opposite points.
* C180: apply_mask compares only names of dimensions; a mask of another shape with the same number of points is reshaped silently.
* C181: assert_time_coords_valid looks for blend_time on the first cube only, so the verdict depends on the order of the cubes.
* C184: update_record_run_weights writes weights with three decimals: three equal inputs are recorded as 0.333 each and a contributor under 0.0005 as 0.000; after several blends the weights do not add up.
* C185: get_coords_to_remove and update_blended_metadata: a cycle blend of cubes that have a blend_time fails (it is removed only for model blends), and a blend over, say, realization keeps the coordinate if there is one input and removes it if there are several.
* C186: with `bin_data=True` a feature value equal to a split is put in the bin above it (np.digitize) though LightGBM sends it below, so it gets the probability of another row in that bin (`C186_equal_refuted`).
* C188: descending output thresholds are accepted and their probabilities flattened to a constant (`C188_descending_refuted`); a first threshold within 1e-8 of the lower bound gets probability 1 (`C188_lower_bound_refuted`).
* C189: features whose dimensions are in another order are given to the models at the wrong points without an error (`C189_dim_order_refuted`); the realizations of a feature with the name of the forecast are never compared (`C189_same_name_refuted`).
* C190: the spacing of the grid is an absolute value, so PystepsExtrapolate advects the wrong way along a descending axis (`C190_descending_refuted`); time bounds of the analysis are copied to every forecast (`C190_bounds_refuted`).
* C191: square data without additional dimensions put the sites on the first dimension (`C191_square_refuted`); too few lists of auxiliary coordinates drop dimensions (`C191_aux_refuted`).
* C192: a realization dimension of one is lost with the status flag (`C192_realization_refuted`); modified coordinates keep their old bounds (`C192_bounds_refuted`).
* dataframe_utilities._fill_missing_entries: the backward fill is over the whole table, not by site, so a site without altitude takes that of the next site in the table (C195_other_site_refuted).
* dataframe_utilities._ensure_consistent_static_cols: the correction is only made when the sites have different numbers of values of a column (C196_all_moved_refuted), and values going A, B, A give B (C196_most_recent_refuted).
* dataframe_utilities.quantile_check: compares quantiles in order of first appearance (C194_order_matters_refuted).
* amend.update_diagnostic_name: str.replace on the whole cube name (C198_everywhere_refuted); amend._update_cell_methods: a comment is overwritten when it merely contains the name (C199_part_of_name_refuted).
* metadata_interpreter.check_threshold_coordinate_properties compares by substring of the cube name, so "above" inside the diagnostic name satisfies the rule (C201_comparison_refuted); comments need only start with the diagnostic (C201_comment_refuted).
* metadata_interpreter.interpret_mandatory_attributes: dict of cycles keeps one cycle per model (C202_cycles_refuted) and raises KeyError for a model without a record, which the command does not catch (C203_stops_refuted).
* C205: check_tree accepts trees with cycles, with unreachable islands, with nodes whose two destinations are the same, and with three fields in a node; in each case points get no category or the command fails.
* C207: thresholds are matched within 1 % also for temperatures in kelvin: a test at 273.15 K is given the probabilities at 273.15 K and 275.15 K together.
* C207: if one input has a threshold coordinate named "threshold", this name is expected of all inputs and the tests of the others end with an IndexError.
* C209: with both forecast_reference_time and blend_time on the inputs the latest blend_time is written to both.
* C212: a nested command with --output but without --pass-through-output gives None to the command around it, which then fails or takes the input as not given.
* C214: a point masked in the input of nbhood-land-and-sea becomes 0 when the domain has both land and sea; and a land mean at the edge can change with sea data (square shape).
* C215: nbhood-land-and-sea tells land from sea by the first layer of the weights only; weights whose mask is absent (no sea in the domain) are refused.
* EnsembleReordering accepts percentiles whose mask differs between percentiles when the raw ensemble has no mask; the reordering then puts NaN at unmasked places and loses values (C217_varying_mask_refuted).
* generate-percentiles without coordinates ignores the percentiles asked for when the input has realizations: no warning (C219_rebadge).
* C221: with a land-sea mask the estimation masks the cubes of additional predictors that were handed in (C221_fields_changed_refuted).
* C222: a minimisation whose only recorded state is the starting point ends with an IndexError (C222_first_guess_refuted).
* C223: with a template and percentiles asked for, a percentile forecast at a time not wanted comes back as percentiles, not probabilities (C223_precedence_refuted); realizations with percentiles asked for can be calibrated but not returned uncalibrated (C223_realizations_refuted).
* C226: `SpotManipulation` documents `extract_percentiles` as a number or list; a single number raises `TypeError` (not iterable) and 0 is ignored.
* C226: `ignore_ecc_bounds_exceedance` and `skip_ecc_bounds` reach only the conversion from probabilities; `ResamplePercentiles()` is called with the defaults.
* C227: a cube of lapse rates silently takes precedence over `fixed_lapse_rate`, although `SpotLapseRateAdjust` refuses both together.
* C230: point-by-point reliability calibration fails for two points with the same coordinates although each has its own table (the tables are looked up by coordinates).
* C231: `LapseRate.process` squeezes the temperature slices, so a grid of one row or one column without realizations is refused, although it runs with a realization dimension of length 1; if x comes before y the temperature is combined with the orography at other points.
* C232: `HailFraction` extracts with a list of names, so a missing input passes if another comes twice (the cloud-base temperature is then the cloud-top one).
* C233: `add_coordinate_to_cube` loses the mask of masked data.
* C234: time bounds that differ by up to one part in 100000 are taken as the same length.
* C236: with lists of two amounts probabilities are always refused, also for additive 0 and multiplicative 1 (a list is compared with a number).
* C237: `normalise_to_reference` does not compare units: a reference in mm is used with its numbers for fields in m.
* C238: `ChooseDefaultWeightsTriangular.process` converts the width with `Unit.convert`: 2 degrees Celsius becomes 275.15 K for a coordinate in kelvin.
* C239: height adjustment of probabilities at a single site cannot work (Qhull refuses points on a line); for other data the displacements are added along the last dimension, whatever it is.
* C240: FreezingRain uses one cube as rain and as sleet if its name holds both words (a third cube is then ignored); the result can exceed 1.
* C241: SnowSplitter does not convert probabilities in per cent.
* C242: VisibilityCombineCloudBase inverts visibility probabilities of being above, but takes a cloud base probability of being above as it stands.
* C243: two texts of one lead time ("24" and "24.0") in the RainForests configuration silently drop the first; a first lead time without thresholds makes a later single threshold unused.
* C245: `_ensure_single_valued_forecast` looks at realizations only if there is no percentile dimension; its squeezed result is dropped by `process`, so a realization dimension of length one stays.
* C247/C248: `OrographicSmoothingCoefficients.process` turns the caller's orography round in place; from an x, y ordered orography the coefficients come in x, y order, which `RecursiveFilter` does not turn round.
* C249: `ExtractLevel.process` writes results by position (`result_data[i]`), so realization after another dimension of the same length gives values at other points; the caller's cube is filled in place.
* C250: `HailSize` converts the condensation pressure to Pa but never the pressure coordinate of the temperatures: with levels in hPa the hail size is silently wrong.
* C251: a phase level within the topmost layer is given as the top of the profile; the extrapolation below the sea uses the first five levels as stored and their heights in whatever unit; `PhaseChangeLevel.process` converts the caller's cubes.
* C252: weights for other blend points are accepted and used by rank; with more than three dimensions the slices along the second dimension are zipped with the weights and merged, so slices beyond the weights are dropped, a second dimension of length one is lost, and a descending one reversed (weighted_blend.py:638-657).
* C253: `CubeCombiner` with `broadcast_to_threshold` combines a further cube that has a realization dimension of length one with the first realization only (zip of the slices), loses a realization dimension of length one, and keeps the name of the first threshold coordinate in the plugin, so that it cannot be reused for another diagnostic.
* C254: `Threshold` fills its results in the order in which thresholds (and radii) were given, while the coordinate made by merging is ascending: thresholds `[2, 1]` give probabilities under the wrong labels; same for radii of vicinity.
* C254: with fuzzy bounds `np.where` drops the mask, so that data under the mask enter the maximum within a vicinity.
* C254: the vicinity in `Threshold` is over the last two dimensions, not over y and x: a cube with dimensions (y, x, realization) that is not collapsed mixes realizations.
* C255: `OccurrenceWithinVicinity` compares the coordinates of the land mask with those of the cube but not the order of its dimensions: a mask on (x, y) of a square grid is used transposed.
* C256: `ShowerConditionProbability` compares only the shapes of its inputs: a convection cube on (x, y) of a square grid is combined with a cloud cube on (y, x) by position; and a cloud fraction in per cent is compared with 0.8125 as it is.
* C257: `ExtractValueFromTable` compares only shapes, so that cubes on different grids are combined; it ignores units; and it leaves the row cube of the caller with its dimensions reordered.
* C258: `NeighbourhoodProcessing` drops dimensions of one point (slices merged again), and uses a mask on (x, y) of a square grid transposed.
* CloudTopTemperature converts the condensation pressure to Pa but not the pressure levels, and its result depends on the order of the levels (C260); HumidityMixingRatio and CloudCondensationLevel convert no units and compare no grids (C261); WetBulbTemperature compares neither grids nor level points (C262).
* A Combine plugin made without a new name keeps the name of the first cube it processed for all later results (C263_combine_reuse_refuted).
* Neighbourhood percentiles asked for in an order that is not ascending are labelled wrongly: merging sorts the percentile coordinate, the data stay in the order asked for (C264_labels_refuted).
* MetaNeighbourhood ignores a mask given with percentiles (C266_mask_ignored_refuted).
* generate_metadata with a single percentile or threshold fails (the realization coordinate to be renamed is never made), and with a single realization silently makes a cube without it (C268_single_percentile_refuted, C268_single_realization_refuted).
* nowcast-accumulate gives an analysis's time bounds to every accumulation (C269_bounds_refuted); with an interval longer than the period, minutes are left out (C269_gaps_refuted).
* StandardiseMetadata is not stable under repetition when an attribute is written with "{}": it is extended each time (C270_again_refuted).
* generate_advection_velocities_from_winds truncates the lead time to whole minutes; for fields not a whole number of minutes apart optical flow then divides the whole displacement by the seconds left over, so the perturbation is many times too fast (C271_seconds_refuted).
* wind-downscaling takes the points of the vertical coordinate as metres whatever its unit, and level numbers for a wind on model levels (C272_heights_refuted).
* apply-night-mask fits the mask by position: with time before realization and equal lengths the mask of another time is used (C273_order_refuted); it drops the mask of the data (C273_masked_refuted); with several bounded times all use the first period (C273_periods_refuted).
* generate-clearsky-solar-radiation compares coordinates but not the order of dimensions: altitudes stored as (x, y) on a square grid are used transposed (C274_order_refuted); a negative accumulation period is accepted and gives 0 everywhere, with reversed time bounds (C274_negative_refuted).
* `CubeCombiner` with broadcasting accepts a first cube with one realization and a further cube with several, and then uses only the first realization of the further cube (`C253_single_first_refuted`).
* nowcast-optical-flow counts a pair with a dry cube as velocity 0 in the mean: with three cubes of which the earliest is dry the velocities are half of those from the last two (C277_dry_first).
* blend-cycles-and-realizations, said to be equal-weighted across realizations and cycles, gives cycles equal weight: realizations of a cycle with fewer of them count more (C278_members_refuted).
* C279: interpolating directions leaves complex numbers in the input cubes (temporal_interpolation.py:631-632), so a second call on the same cubes raises a TypeError; exactly half-way between opposite directions the result is 0 degrees whatever they were.
* C280: of two inputs with the same validity time temporal-interpolate returns the one named second.
* spatial_weights.py:103: masks along further dimensions are only compared if the first slice has a masked point; otherwise masks of later slices are ignored (C281_template_refuted).
* weighted_blending.py:128-134: a cval, y0val or ynval of 0 is falsy and so accepted with a method it does not belong to (C282_zero_refuted); y0val etc. are only checked when there are two or more inputs (C282_one_input).
* C283: the orography gradients at the edges of the domain are extrapolated and can have the wrong sign (a coast that rises eastwards has a negative eastward gradient at both edges), so that upslope wind there generates no rain and downslope wind does.
* C284: additional predictors with the same sites in another order are refused by apply-emos-coefficients with an empty list of mismatching sites, and silently mispaired when coefficients are estimated from a table.
* C285: modal weather codes of inputs for half an hour get a cell method interval of 0 hours, and gaps between the inputs go unnoticed although the result is said to be for the whole time.
* EMOS training point by point pairs predictors with truths by position, but variances and output positions by order: truths listing the sites in another order than the forecasts give coefficients of other sites (C286_order_refuted), truths with x first on a square grid those of the mirror image (C286_mixed_refuted), and forecasts with x first fail after training unless square (C286_x_first_refuted).
* orographic-enhancement: the level tolerance of 0.1 is in the unit given by the user, so `--boundary-height 1 --boundary-height-units km` takes a level 50 m off and refuses two levels 50 m apart (C287_unit_refuted).
* DistanceBetweenGridSquares (and gradients made with it) leaves the axes of the cube given to it in metres (C288_units_refuted) and refuses projected grids with x first unless square (C288_x_first_refuted).
* C289: if a realization number occurs in two ensembles, the order in which the cubes are given decides the numbers of the members, and lagging in steps gives other numbers than lagging at once
* C290: `AggregateReliabilityCalibrationTables.process` appends "forecast_reference_time" to the list of coordinates its caller passes
* C291: the grid made by create-grid-with-halo need not contain every place within the halo radius of the original grid, as the radius is rounded down to whole cells (pad_spatial.py:91-92).
* C292: AdvectField does not look at the order of dimensions; with cubes stored as (x, y) a field in an eastward flow is moved north, by dx rows per column (forecasting.py:176, 336-354).
* * C293: levels under the documented key "height_levels" are ignored by generate-metadata-cube (cli/generate_metadata_cube.py:55-58).
* * C294: 2-D auxiliary coordinates of a diagnostic stored as (x, y) are read as (y, x) by SpotExtraction after the cube is transposed (spot_extraction.py:172, 290): points of other cells, or an IndexError.
* * C295: datetime_constraint drops minutes (utilities/temporal.py:150, 155-157): a cube for 03:45 is returned for 03:15, and a range up to 06:30 has no 06:15.

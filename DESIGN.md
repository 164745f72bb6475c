# Formal model of belcour/alta in Lean 4

## Layout

* `lean/Verif/Model/*`  - definitions that model the C++ code, each with the
  file and lines it models and its simplifications.
* `lean/Verif/Spec/*`   - small specifications, independent of the model.
* `lean/Verif/Proofs/*` - helper lemmas.
* `lean/Verif/Props/*`  - the property theorems, with an `example` beside each
  showing that a concrete, non trivial case meets the hypotheses.
* `properties.jsonl`    - the properties (generated by `tools/properties.py`).
* `MANIFEST.json`       - property -> theorem names and status (generated by
  `tools/manifest.py`).
* `seeded/LOG.jsonl`    - log of the mutation experiments (`tools/mutate.py`).

## Trusted base

* Lean's kernel (4.33.0) and Mathlib's statements of the notions used in the
  specifications (real numbers, trigonometric functions, derivatives, Chebyshev
  and shifted Legendre polynomials, extended reals).
* Axioms: `propext`, `Classical.choice`, `Quot.sound` only; each theorem depends
  on a subset of these three (`#print axioms`).  No axiom is added, nothing rests
  on compiled code.
* The reading of the C++ source into the definitions of `Verif/Model`.
* Contracts given as hypotheses of theorems, never as axioms:
  - the quadratic program solver (`Solver.Sound`, `Solver.Complete` in
    `Spec/Quadprog`): QuadProg++ is not modelled; the theorems hold for every
    solver that returns a feasible point when it reports a finite cost (and, for
    completeness, that reports one when the program is strictly feasible);
  - number printing (`fmt`): any printing of doubles as decimal text; round trip
    theorems give the read value as the printed decimal;
  - the dynamic linker: a function from paths to symbol tables.

General simplifications (each definition repeats those that concern it):

* `double`/`float` arithmetic is modelled by exact arithmetic (real numbers, or
  an arbitrary field) except in the binary file formats, where a stored double is
  its 8-byte pattern.  Rounding, overflow to infinity and NaN propagation are not
  modelled; where a division by zero or a value that is not a number matters the
  statement is about numerator and denominator (`Rat1.parts`, `sampleFails`) or
  the domain is stated explicitly (`Model/GeomChecked`).
* `int` is unbounded unless the property is about the range (the timer and the
  MERL header use 32 bit vectors).
* asserts are active (no build configuration of the repo defines NDEBUG): a
  failed assert, `throw;` without active exception, an uncaught exception, an
  access outside of a vector and an undefined behaviour are the outcome `none`.
* Uninitialised memory is an arbitrary parameter (`junk`, `mem`).
* Diagnostics on std::cout/std::cerr are not modelled.  Memory allocation never
  fails.

## Plan per property

| id | model | proof (theorems in) |
|----|-------|-------|
| C01, C02 | `Model/ParamNames`: sorted table built by `std::map::insert`, linear searches | decision over the table, lifted to all strings (`Props/ParamNames`) |
| C03, C04 | `Model/Geometry`: `convertInput` writes lists; read set = first `dim` entries | case analysis (`Props/GeomConvert`) |
| C05, C06 | `toCartesian`, `halfToCartesian` over reals | trigonometric identities; refutation for the parametrizations where it fails (`Props/GeomUnit`) |
| C07, C08 | `toCartesian`/`fromCartesian` | polar coordinates lemmas for `atan2`, `arccos` (`Props/GeomRoundTrip`) |
| C09 | same | explicit rotation; refutation where the code mirrors (`Props/GeomIsotropic*`, `GeomRetro`) |
| C10, C11 | same | algebra; refutations (`Props/GeomLossy`) |
| C12 | same | rotation of `atan2` modulo 2 pi (`Props/GeomRotation`) |
| C13, C14 | `Model/GeomChecked`: domain conditions of each operation; `isAboveHemisphere` | inequalities (`Props/GeomDefined`) |
| C15 | `Model/Output` | lists; refutation for the accumulated initial content (`Props/OutputConvert`) |
| C16-C20 | `Model/Args`: map as ordered association list, argv as list of strings | induction over argv (`Props/CommandLine`, `ArgsAccess`, `ArgsCmd`) |
| C21 | `Model/Args`: byte stream as list of characters | induction over the stream (`Props/Header`) |
| C22 | `Model/Storage`: writer and reader on byte lists | round trip by induction; refutation when the first data byte is `#` (`Props/Binary`) |
| C23, C24 | `Model/TextLoad`, `Model/Segment` | induction over the rows (`Props/TextLoad`, `Segment`) |
| C25-C27 | `Model/Segment` | lists (`Props/Segment`) |
| C28-C31 | `Model/Function`: trees of abstract lobes (value, parameters, Jacobian) | induction over the tree; `HasDerivAt` for Jacobians (`Props/Function`, `FunctionJac`, `LobeComposition`) |
| C32 | `Model/RationalBasis` | enumeration = bijection by induction, combinatorics (`Props/RationalBasis`) |
| C33, C34 | `Model/Rational` | algebra; round trip by induction on token streams (`Props/Rational`, `RationalFile`, `ChannelDomain`) |
| C35, C36 | `Model/OrthoBasis` | comparison with Mathlib's `Polynomial.Chebyshev.T` and `shiftedLegendre` (`Props/OrthoBasis`) |
| C37-C41 | `Model/Lobes` over reals | `HasDerivAt`; refutations where the code's Jacobian is wrong (`Props/LobesJac`, `Fresnel`, `Smith`, `Microfacet`, `LobesLawful`) |
| C42, C52 | `Model/Metrics` | inequalities of finite sums; refutation for masks (`Props/Metrics`) |
| C43, C44, C45 | `Model/Merl`, `Utia`, `Grid` | index arithmetic, floors, multilinear weights (`Props/Merl`, `Utia`, `Grid`) |
| C46 | `Model/Rbf` | convex combination (`Props/Rbf`) |
| C47 | `Model/Plugins` | induction over the path (`Props/Plugins`) |
| C48 | `Model/Timer`, 32 bit words | invariant over histories (`Props/Timer`) |
| C49, C53 | `Model/Quadprog` | algebra of the constraints; the slot permutation; loop invariants (`Props/Quadprog`, `QuadprogFit`) |
| C54 | `Model/QuadprogParallel`: a schedule is the order of arrival at the critical section | invariant over every schedule (`Props/QuadprogParallel`) |
| C50 | `Model/Data2Data`: events of the threads on the shared output | invariant over every interleaving (`Props/Data2Data`) |
| C51 | `Model/TextSave`, `TextLoad` | round trip (`Props/TextSave`) |
| C55 | `Model/FunctionTree`: recursion on the length of the arguments | descriptions (`Spec/FunctionTree`) are read as themselves (`Props/FunctionTree`, `FunctionTreeText`) |
| C56 | `Model/FunctionFile` (save and load of each lobe, sums, products, header), `Model/PluginObjects` (constructors) | reading inverts writing, class by class, then by induction on the tree; the header is read by `parseHeader` and `getFunction` (C05, C55) makes the object that reads. Limits (`Props/FunctionFileLimits`, `mixed_sum_not_kept`) are theorems. Not in the model: `--export` formats other than alta, the uninitialised `_n` / `_isotropic` of the lafortune constructor, the missing resize of normalized_schlick |
| C57 | `Model/NonlinearFit`: the functions that the fitters give to the solvers | loops to closed forms (`foldl` of updates with distinct indices), then `HasDerivAt` from C31 (`Props/NonlinearFit*`); limit: the derivative of the Ceres residual with `--log-fit` |
| C58 | `Model/Bootstrap`: `bootstrap` of functions and plugins (three modes: vector, file, default) | induction on the tree of sums and products; file mode through C56 (`FT.load_saved`); independence of the uninitialised coefficients as a relational theorem (`FT.Alike` → `Fn.Same`); limits proved (`Props/Bootstrap*`) |
| C59 | `Fn.lo`, `Fn.hi` of `Model/Function`, `Model/Lobes` | `List.Forall₂ (≤)` for each class, then appended along the tree (`Props/Bounds`) |
| C60 | `Model/NonlinearFitRun`: `fit_data` of the four nonlinear fitters; the external solver is an arbitrary interactive program (`CallingSolver`: stop or call the functions of the fitter), so its evaluations change the shared function | invariant of the calls (`FT.Reached`: the function is always the start with other parameters), induction on the solver; what is expected of the solver (`Descends`, `AnswersEvaluated`, `StaysBetween`) is stated on its dialogues and is satisfiable (`betterNlopt`, `betterEigen`) (`Props/NonlinearFitRun`, `NonlinearFitSolvers`, `NonlinearFitCeresRun`, `NonlinearFitRunLimits`) |
| C61 | `nloptCriteria`, `nloptAlgorithm`, `ipoptOptions`, `ceresOptions` of `Model/NonlinearFitRun` | relational: two command lines equal on the listed options give the same fit, by induction on the function (`Props/FitterOptions`); limits against the documentation |
| C62 | `Model/Distance`: `L2_distance`, `Linf_distance` of any function seen as a parametrization and a `value` | loops to sums and maxima, Cauchy–Schwarz free bounds; link with the objective of C57/C60 (`Props/Distance`); limit: the printed variance |
| C63 | `Fn.reflect` (Spec/Reciprocity): a function applied to a pair of directions through `convertInput` (Model/Geom…), lobes of `Model/Lobes` | C11 for the symmetric parametrizations; class by class for the lobes on the directions; induction on the composition (`Props/Reciprocity`, `ReciprocityTree`); refutations on concrete directions (`ReciprocityLimits`) |
| C64 | `lo`/`hi`/`value` of `Model/Lobes`, compositions of `Model/Function` | class by class, then induction on the composition (`Props/NonNegative`, `NonNegativeLimits`) |
| C65 | `Model/Fit2Stat`: conversion of the data, evaluation, norms, weights, printed and written numbers of `fit2stat` | loops filling the converted data set (`fill_data`), norms of C42 on the columns of differences, link with C62 (`Props/Fit2Stat`, `Fit2StatLimits`) |
| C66 | `Model/Moments`: `data2moments` from the loaded data and its options | mixed radix enumeration of the grid (`sum_sampleIndices`), loops to sums; Riemann error with Mathlib's Lebesgue integral (`Proofs/Riemann`); relational invariances (`Props/Moments`, `MomentsIntegral`, `MomentsLimits`) |
| C67 | `Model/Brdf2Data`: the loop of `brdf2data` on `vertical_segment` data | invariant of the loop (rows before the index are exported, the others untouched), then the theorems of C62 on the exported data (`Props/Brdf2Data`) |
| C68 | `Model/Brdf2Gnuplot`: the two plots of `brdf2gnuplot`, numbers and not text | loops to maps; the data plot is compared with the export of C67, the polar plot with the pairs of directions in the plane of incidence (`Props/Brdf2Gnuplot`, `Props/PolarPlot`) |
| C69 | `Model/Data2Brdf`: `main` of `data2brdf` with `check_compatibility`, on the models of `get_function` (C55), the fitters (C60), the distances (C62) and the files (C56) | the stages are composed: the fit keeps the objects, the saved options are those of the command and two numbers, hence the loading theorems of C56 apply (`Props/Data2Brdf*`) |
| C70 | `Model/RationalFit`: `rational_fitter_eigen` from the columns of the matrix to the update of the function; the decomposition is a parameter | the quadratic form of the Gram matrix is the error, spectral form in the basis of eigenvectors (`Proofs/Spectral`), smallest eigenvalue by induction on the list (`Props/RationalFit`) |
| C71 | `Model/RationalFit`: `rational_fitter_leastsquare`, both steps and the iterations; the solver is a parameter | induction on the iterations: each step is the optimum of its problem; comparison with chosen coefficients (`Props/RationalFitLeast`); existence of sound solvers in `Proofs/IdealSolvers` |
| C72 | `Model/ShaderExport`: the texts written by `save_body`, `save_call` and `function::save` for a shader; `Spec/Glsl`: reader and evaluator of the part of the language the files use | words and grammar of each piece of text (`Proofs/ShaderLex`, `ShaderPrograms`, `ShaderBodies`, `ShaderParse`, `ShaderProgram`), values of each class (`ShaderEval`, `ShaderLink`, `ShaderValues`), induction on the composition (`ShaderTree`, `ShaderSum`, `Props/Shader`); the classes whose shader is wrong: value of the shader of a sum of one object (`Proofs/ShaderSingle`, `Props/ShaderWrong`, `ShaderBeckmann`, `ShaderMoment`), and invariants of the reader — balance of the parentheses, no declaration `vec3 x(0.0)` — by induction on its depth (`Proofs/ShaderBalance`, `ShaderDeclares`, `Props/ShaderNever`) |
| C73 | `Model/Slice`: object, `get`, `set`, `value`, the bounds of the domain, the copy of pixels to and from the planes of an image; `Spec/Slice`: the grid of cells | floor of an affine map, injectivity of the centres, the last plane of each channel; refutations at the bounds in `Props/SliceLimits` |
| C74 | `Model/Astm`: header, names of the columns, rows, with the state of the stream (good or not), abort and endless loop as results; `Spec/Astm`: text of a file | reading of each line, induction on the lines |
| C75 | `Model/PythonFunction`: plugin objects with addresses, functions as trees of pointers, scripts as lists of operations; `Spec/PythonFunction`: sessions reached by a script, sum, product | invariant over all scripts; the tree found by following the pointers refines `Model/Function` |
| C76 | `Model/PythonData`: the array filled by `data2data` over any earlier content, the loop of `brdf2data` | induction on the samples, refinement of the commands (C50, C67) |
| C77 | `Model/RetroYoo`: the class with the memory it reads as a parameter | contract of functions; refutations of the rest |
| C78 | `Model/Brdf2Brdf`: the program, `load_function` for nonlinear and rational functions | header round trip (C56, C34), the text of a lobe is refused by a rational function; refutations of the rest |
| C79 | `Model/CppExport`: the C++ written for a rational function; `Spec/Cpp`: reading and running that part of C++ | words, grammar and values of the terms by induction on the coefficients and the variables; the refutations follow the statements of two channels |
| C80 | `Model/Data2Stats`: the program, its file of statistics, the loading of data by plugins; `Spec/Data2Stats`: reading the file and the six statistics | reading back by induction on the numbers of a line; MERL from the centres of the cells (C02, C42) |
| C81 | `Model/Data2BrdfRational`: data2brdf with the fitters of rational functions | the channels after the fit by induction (`Proofs/FittedRational`); the file by the round trip of C34 and the header of C56; the intervals by C53 |
| C82 | `Model/XmlCmd`: the script `xml_cmd.py` on the tree of the XML file, the operating system being a parameter, and the words that the shell makes | the commands by induction on the elements; the options by `parseArgs_items` (C16) after an induction on the text of the options; the functions by C55 |
| C83 | `Model/PythonFit`: a fitter as an object with its members, `set_parameters` and `fit_data`, and the two calls of the binding | induction on the history of the calls: an invariant on the members (the options of the last call; for Ceres, the accumulated options) |
| C84 | `Model/PythonArgs`: `python_arguments` from the items of a dictionary, the vectors of a session by order of creation and the commands on them | induction on the items (the map of the command line is determined by its values); frame and induction on the commands, induction on the expressions |
| C85 | `Model/PythonFile`: `load` and `save` of the binding on `FT.load`, `saveFunction` and `parseHeader`, and sessions with files | what `parseHeader` leaves does not depend on the bindings; `FT.load_saved` (C56); frame and induction on the script |
| C86 | `Fn.reflect` and the lobes, as for C63; `Cart.rotZ` (C12) | C12 for the parametrizations of isotropic materials; class by class for the lobes on the directions; induction on the composition (`Proofs/Composition`, `Props/Isotropy`); refutations on concrete directions and examples (`IsotropyLimits`) |
| C87 | `data2data` from its options to its file (`Model/Data2DataMain`): loading (C80), conversion (C50), saves (C22, C51), outputs of plugins as arrays of samples | composition of the round trips of C50, C51, C22 with the loading of C80; induction on the samples for `--splat`; all interleavings for the interpolation; limits and examples (`Props/Data2DataMain`, `Data2DataRun`, `Data2DataSplat`, `Data2DataExample`) |
| C88 | `brdf2data` from its options to its file (`Model/Brdf2DataMain`): templates (C80, plugins as arrays of samples), functions (C78), the loop of `main`, saves (C51); composed with `data2brdf` (C69, C81) | induction on the samples; the loop's values are the errors of C42's distances; composition with the files of C69 and C81; limits and examples (`Props/Brdf2DataMain`, `FitExport`, `FitExportExample`) |
| C89 | `fit2stat` from its options to its file (`Model/Fit2StatMain`): data (C80), functions (C78), the statistics (C65), the text of vectors (C80); composed with `data2brdf` (C69, C81) | the file as a list of lines read by an independent reader; data on the abscissae of the function are converted to themselves; composition with the files of C69 and C81 and the distances of C42; limits and an example (`Props/Fit2StatFile`, `Fit2StatMain`, `FitStat`, `FitStatExample`) |
| C90 | `brdf2gnuplot` from its options to its file (`Model/Brdf2GnuplotMain`): data (C80), functions (C78), the plots (C68); composed with `brdf2data` (C88) and `data2brdf` (C69, C81) | the file as a table read by an independent reader (`readTable`: lines ended by an end of line, cells by a tabulation); a sample that `brdf2data` exports is exactly a line that is plotted; composition with the files of C69 and C81; limits and an example (`Props/Brdf2GnuplotFile`, `Brdf2GnuplotMain`, `FitPlot`, `FitPlotExample`) |
| C91 | `data2moments` from its options to its file (`Model/Data2MomentsMain`): the options `get_vec<int>`, the moments (C66), MERL objects with their domain (C43, C80) | options as lists of whole numbers (`NumbersText`); the file read by an independent reader (`readMoments`); MERL files from their bytes; limits and examples (`Props/Data2MomentsFile`, `Data2MomentsMain`, `Data2MomentsMerl`, `Data2MomentsExample`) |
| C92 | the saved files cut after any number of bytes (`List.take n`), loaded with the loaders of C22, C51, C43 and C56 | any prefix of a header leaves nothing to read after it (induction on its lines); the rows of whole lines and of what follows are appended (`loadRows_append`), a line without its end gives one row at most, the samples of the whole lines are at the front of the buffer; binary files are refused when a byte of the data is missing; a MERL table is characterised for every cut. False of the code: refuted on a binary header, on a number of a text file, on MERL files and on function files; for the rational functions `Model/RationalStream` makes the loader explicit when numbers are missing (vectors that are not initialised hold an arbitrary memory), proved equal to the loader of C34 when nothing is missing |
| C93 | any number of runs of `data2data` (C87) and of `brdf2brdf` (C78), each on the file of the one before, as a relation between the contents of two files (`Spec/Generations`: `ConvertsTo`, `ReexportsTo`) | induction on the history: the loaded object is the invariant, and a loaded object that was printed once is printed in the same way (`PrintsStably`); for functions, an object made of what was read prints the text that was read (`LobeObj.same_text`, induction on the tree). False of the code for the retro-Beckmann class (`Props/GenerationsLimits`); endless histories as examples (`Props/GenerationsExamples`) |
| C94 | text files as lists of lines under a header (`Spec/Joined`), the loader of C23, C26 and C51, the distances of C62 and the fitter of C53 | the loaded object is a function of the list of its rows (`loadText_iff`), and the rows of joined or permuted lines are joined or permuted; folds of `min` and `max` over a list in any order; distances as sums and maxima over the samples (`Props/JoinedText`, `JoinedUse`, `JoinedFiles`); for the fitter, an exact solver as in C53. A second header that differs is ignored (`joined_other_header`) |
| C95 | runs of `data2data` (C87) and `brdf2data` (C88), as relations between the contents of files (`ConvertsTo`, `ExportsTo`), on files related as in C94 | each run writes a list of lines related to the samples one by one, by a relation that is a function of the sample and of the header (`convertedSample_unique`, `exportedSample_unique`); lists so related to joined, permuted or cut lists are joined, permuted or cut. The model of the programs threads the temporary vector from one sample to the next, so that this is not true by construction |
| C96 | runs of `fit2stat` (C89) and `data2stats` (C80) on two files related as in C94 | the written statistics are functions of the list of the errors at the samples, one by one; sums and maxima of permuted or doubled lists (`Props/StatsOrder`). Exact arithmetic: with rounding, the sums depend on the order |
| C97 | three runs of `fit2stat` or `data2stats`, on two files and the two joined (C94), with any monotone printing | the mean of two lists together is between their means, sums of powers grow, maxima combine; monotone printing keeps each of these relations (`Props/StatsJoined`). The lines of the three files are compared one by one (`JoinedStats`) |
| C98 | runs of `brdf2gnuplot` (C90), as relations between the contents of files (`PlotsTo`, `Spec/PlotLines`), on files related as in C94 | the run writes a file exactly when the distances can be computed, and its lines come from the samples one by one but for their number (`gnuplotData_iff`); partial maps over joined, permuted and cut lists (`Props/PlotLines`) |

## Where the code departs from what a user expects

Each is a theorem (see the notes of the manifest): COS_TK, SCHLICK_VK and
STEREOGRAPHIC directions that are not unit vectors; mirror images and exchange of
view and light in isotropic round trips; the averaged output value accumulates
the previous content; negative numbers lost on the command line; the binary
format misread when the first data byte is `#`; intervals of symmetrical data;
bounds not updated by `set`; wrong Jacobians (retro Blinn behind, normalised
Schlick, Smith, Walter, Beckmann and Ward roughness, shifted gamma); rational
update with longer vectors; files without an unallocated channel; masks of the
metrics counted by their zeros; grid interpolation on the upper boundary; the
hours printed by the timer; the last sample never given to the parallel solver;
a missing plugin replaced by a rational function, or ending the program.

## Not modelled

The bodies of the numerical solvers called by the fitters (QuadProg++, Eigen
decompositions, Ceres, IpOpt, NLopt, Matlab), image codecs (OpenEXR), the matlab
bindings, the matlab export of functions. The sources CMake does not
build: the softs `data2gnuplot`, `data2diff` and `brdf2moments`, the fitters
`rational_fitter_cgal`, `rational_fitter_dca`, `rational_fitter_matlab` and
`rational_fitter_parsec_*`, the interpolant `matlab.cpp`; most of these call
methods (`setDimX`) that no longer exist.

import json
P=[]
def add(title, statement, quantifier, why, *anchors):
    P.append(dict(id="C%02d"%(len(P)+1), title=title, statement=statement, quantifier=quantifier, why_tests_cant=why, anchors=list(anchors)))
PC="sources/core/params.cpp"; PH="sources/core/params.h"; AH="sources/core/args.h"
add("Input parametrization names round trip",
 "params::parse_input(params::get_name(p)) == p for every parametrization the library names; parse_input(s) returns p only for the one name of p; any other string gives UNKNOWN_INPUT. Two parametrizations never share a name.",
 "every params::input value and every string",
 "The set of strings is infinite, and a clash or a missing entry only shows on the one pair of names concerned.",
 PC+":parse_input",PC+":get_name",PC+":create_map")
add("Output parametrization names round trip",
 "params::parse_output(params::get_name(o)) == o for every output parametrization, and parse_output(s) != UNKNOWN_OUTPUT only when s is the name of the value it returns.",
 "every params::output value and every string",
 "All strings must be covered, not the five names.",
 PC+":parse_output",PC+":get_name",PH+":params::output")
add("Dimension equals the number of coordinates",
 "A conversion into parametrization p writes exactly params::dimension(p) values; to_cartesian(x, p) reads only the first dimension(p) entries of x.",
 "every parametrization accepted by the conversions, every source configuration and every array content",
 "A wrong dimension is a buffer overrun whose effect depends on the memory behind the array.",
 PC+":to_cartesian",PC+":from_cartesian",PC+":dimension",PH+":convert")
add("Same-parametrization conversion is the identity",
 "params::convert(x, p, p, y) leaves in y exactly the dimension(p) values of x, and convert(x, a, b, y) is the composition of the conversion of a to CARTESIAN with the conversion of CARTESIAN to b.",
 "every pair of parametrizations and every input array",
 "Universally quantified over arrays and pairs of parametrizations.",
 PH+":convert")
add("Parametrized directions are unit vectors",
 "Conversion of coordinates to CARTESIAN yields a view vector and a light vector of norm one, for every coordinate in the domain of the parametrization.",
 "every parametrization and every coordinate tuple in its domain",
 "Continuous domain; failures occur on a measure-zero or out-of-sample region.",
 PC+":to_cartesian",PH+":half_to_cartesian",PH+":classical_to_cartesian")
add("Half-angle coordinates describe the half vector",
 "For coordinates (theta_h, phi_h, theta_d, phi_d) the produced view and light vectors satisfy V+L = 2 cos(theta_d) H with H=(theta_h,phi_h) in spherical coordinates, and V.H = L.H = cos(theta_d); L is the mirror image of V with respect to H.",
 "all real angles",
 "Continuous domain.",
 PH+":half_to_cartesian")
add("RUSIN_TH_PH_TD_PD round trips",
 "Converting a pair of unit directions to RUSIN_TH_PH_TD_PD and back returns the same directions, and converting half-angle coordinates in the canonical domain to CARTESIAN and back returns the same coordinates.",
 "every pair of unit directions of the upper hemisphere; every coordinate tuple in the canonical domain",
 "Poles and quadrants of atan2 are measure-zero sets and branch cuts that sampling misses.",
 PC+":from_cartesian",PC+":to_cartesian",PH+":rotate")
add("SPHERICAL_TL_PL_TV_PV round trips",
 "Converting any pair of unit directions to SPHERICAL_TL_PL_TV_PV and back returns the same directions; converting canonical angles to CARTESIAN and back returns the same angles.",
 "every pair of unit directions, every canonical angle tuple",
 "Continuous domain with branch cuts.",
 PC+":from_cartesian",PC+":to_cartesian")
add("Isotropic three-dimensional coordinates lose only the rotation about the normal",
 "Converting a pair of unit directions to a three dimensional isotropic parametrization and back gives the same pair up to one rotation about the surface normal.",
 "every pair of unit directions of the upper hemisphere, every 3D isotropic parametrization",
 "Continuous domain; sign and quadrant errors mirror the configuration and are invisible on symmetric samples.",
 PC+":from_cartesian",PC+":to_cartesian")
add("Lossy coordinates survive a round trip",
 "For a one or two dimensional parametrization p and a coordinate tuple x in its domain, converting x to CARTESIAN and back to p gives x.",
 "every 1D/2D parametrization (and RUSIN_VH), every coordinate in its domain",
 "Continuous domain.",
 PC+":from_cartesian",PC+":to_cartesian")
add("Reciprocity of the symmetric parametrizations",
 "Exchanging view and light leaves the coordinates COS_TH, COS_TH_TD, RUSIN_TH_TD, RUSIN_VH, COS_TLV, COS_TLR, COS_TK, STARK_2D and NEUMANN_2D unchanged, so any function of those coordinates is a reciprocal BRDF.",
 "every pair of directions",
 "Continuous domain.",
 PC+":from_cartesian",PC+":half_vector")
add("Isotropy of the isotropic parametrizations",
 "Rotating view and light together about the surface normal leaves the isotropic coordinates unchanged (angles modulo 2 pi where an azimuth difference is returned).",
 "every pair of directions, every rotation angle",
 "Continuous domain.",
 PC+":from_cartesian")
add("Conversions of upper-hemisphere configurations are defined",
 "For unit view and light vectors in the upper hemisphere, conversion from CARTESIAN evaluates every acos, sqrt and division inside its domain and passes every assertion, so no NaN is produced and the program does not abort.",
 "every pair of unit directions with non negative z, every parametrization",
 "A domain violation happens on boundary configurations only.",
 PC+":from_cartesian",PC+":half_vector")
add("is_above_hemisphere decides the hemisphere test",
 "params::is_above_hemisphere(x, p) is true exactly when both directions encoded by x have non negative z.",
 "every parametrization and every coordinate tuple",
 "Continuous domain.",
 PC+":is_above_hemisphere")
add("Output value conversion",
 "Converting output values between sizes copies when the sizes match, broadcasts a single value, averages into a single value, and refuses every other pair of sizes.",
 "every input vector, every output size, every previous content of the output array",
 "The defect depends on the previous content of the caller's array.",
 PH+":convert (output values)")
add("Command line parsing",
 "After parsing argv, the words are read in order as options and stray words; is_defined(k) holds exactly for the option names read, and the value of an option is the word that follows it (joined up to the closing bracket for a bracketed vector, whose words are not read as options) unless that word starts with a dash; the first occurrence of a repeated option wins.",
 "every argv without empty words",
 "All command lines, of every length.",
 AH+":arguments(int,char**)",AH+":is_defined",AH+":operator[]")
add("Typed argument access falls back to the default",
 "get_string/get_int/get_float/get_double return the default when the option is absent and otherwise the value parsed from the stored text.",
 "every argument map, key and default",
 "All maps and keys.",
 AH+":get_string",AH+":get_int",AH+":get_float")
add("Vector valued arguments",
 "A bracketed list of n comma separated numbers is read as those n numbers in order; a plain number is broadcast to the requested size; a missing option gives the default vector.",
 "every list of number tokens, every size",
 "All lengths and tokens.",
 AH+":get_vec",AH+":is_vec")
add("Argument update overwrites one key",
 "update(k, v) makes [k] return v and is_defined(k) true and changes no other key.",
 "every map, key and value",
 "All maps and keys.",
 AH+":update",AH+":operator[]")
add("Rebuilding a command line",
 "create_arguments(get_cmd(a)) has the same defined keys and the same values as a.",
 "every argument map whose keys and values are words",
 "All maps; breaks for particular values only.",
 AH+":get_command_line",AH+":create_arguments")
add("ALTA header parsing",
 "parse_header returns, for each line '#KEY v', the binding KEY -> v (the last one wins), ignores comments, and leaves the stream positioned after the header.",
 "every stream content",
 "All byte streams.",
 AH+":parse_header")
add("Binary data file round trip",
 "Loading a file written by the binary save gives data equal in dimensions, parametrizations, confidence interval kind and every stored value, bit for bit.",
 "every data set of every size",
 "Depends on the byte values of the data and on the size.",
 "sources/core/data_storage.cpp:save_data_as_binary","sources/core/data_storage.cpp:load_data_from_binary",AH+":parse_header")
add("Text loading keeps exactly the rows inside the requested domain",
 "load_data_from_text with min/max/ymin/ymax options stores, in file order, exactly the rows whose coordinates and values lie within the bounds.",
 "every file content and bounds",
 "All files and all bounds.",
 "sources/core/data_storage.cpp:load_data_from_text")
add("Confidence intervals contain the value",
 "The interval stored or reported for a vertical segment contains the value: lower <= y <= upper for every output component.",
 "every data row, every confidence interval option",
 "All rows and option combinations.",
 "sources/core/data_storage.cpp:load_data_from_text","sources/core/vertical_segment.cpp:vs")
add("Data get and set address one element",
 "After set(i, x), get(i) returns x (value part) and get(j) is unchanged for j != i; a vector of a wrong length is refused.",
 "every data set, index and vector",
 "All indices and sizes.",
 "sources/core/vertical_segment.cpp:set","sources/core/vertical_segment.cpp:get")
add("min and max bound the stored abscissae",
 "min() and max() of a vertical segment data set are the component-wise bounds of the stored abscissae: each x lies in the box and each bound is reached.",
 "every data set",
 "All sizes and contents.",
 "sources/core/vertical_segment.cpp:update_min_max","sources/core/data.h:min")
add("Data equality",
 "data::equals is reflexive and symmetric, and distinguishes data sets that differ in size, parametrization or by more than epsilon in a value.",
 "every pair of data sets and epsilon",
 "All pairs.",
 "sources/core/data.cpp:equals","sources/core/data.h:equals")
add("Compound function is the sum of its parts",
 "compound_function::value(x) is the sum of the values of its components at x converted to their parametrization; nbParameters is the sum over the non fixed components.",
 "every list of component functions and every x",
 "All lists of components.",
 "sources/core/function.cpp:compound_function::value","sources/core/function.cpp:compound_function::nbParameters")
add("Compound parameter vector round trip",
 "setParameters(parameters()) leaves the function unchanged and parameters() after setParameters(v) is v; fixed components keep their parameters.",
 "every list of components, every fixed flag pattern, every parameter vector",
 "All lists and flag patterns.",
 "sources/core/function.cpp:compound_function::parameters","sources/core/function.cpp:compound_function::setParameters")
add("Compound Jacobian is assembled in parameter order",
 "Entry (y, i) of compound_function::parametersJacobian is the derivative of output y with respect to entry i of parameters().",
 "every list of components and flags",
 "All lists and flag patterns.",
 "sources/core/function.cpp:compound_function::parametersJacobian")
add("Product function",
 "product_function::value is the component-wise product of both factors, its parameter vector is the concatenation of those of the non fixed factors, and its Jacobian obeys the product rule.",
 "every pair of functions, flags, parameters and x",
 "All functions.",
 "sources/core/function.cpp:product_function")
add("Rational basis enumeration",
 "The exponents given to the basis functions of a rational function enumerate each monomial exactly once, by non decreasing total degree.",
 "every dimension and every index",
 "Infinite set of indices.",
 "sources/core/rational_function.cpp:estimate_dk","sources/core/rational_function.cpp:populate","sources/core/rational_function.cpp:index2degree")
add("Rational coefficient normalisation preserves the function",
 "Updating a rational function with coefficients (a, b) gives a function whose value is sum a_i p_i(x) / sum b_i q_i(x) whatever normalisation is applied.",
 "every coefficient vectors and x",
 "All coefficient vectors.",
 "sources/core/rational_function.cpp:rational_function_1d::update","sources/core/rational_function.cpp:rational_function_1d::value")
add("Rational function file round trip",
 "Loading a saved rational function all of whose channels exist gives, for every output channel, the same number of coefficients and the same coefficients, up to the error with which numbers are printed and a common factor of numerator and denominator; loaded in a new object, with numbers printed exactly, it has the same values everywhere.",
 "every rational function, number of variables, number of channels and way to print numbers",
 "All sizes and coefficients.",
 "sources/core/rational_function.cpp:load","sources/core/rational_function.cpp:save_call")
add("Chebychev basis",
 "The one dimensional Chebychev basis function of degree n evaluates the Chebyshev polynomial of the first kind T_n at the normalised abscissa, inside and outside [-1, 1].",
 "every degree and abscissa",
 "All degrees.",
 "sources/plugins/rational_function_chebychev/rational_function.cpp:chebychev")
add("Legendre basis",
 "The one dimensional Legendre basis function of degree n satisfies P_0=1, P_1=x and Bonnet's recurrence and is 1 at x=1.",
 "every degree and abscissa",
 "All degrees.",
 "sources/plugins/rational_function_legendre/rational_function.cpp:legendre","sources/plugins/rational_function_cosine/rational_function.cpp:legendre")
add("Blinn-Phong value and Jacobian",
 "The Blinn lobe evaluates k_s x^N for positive x and 0 otherwise, and its Jacobian is the derivative of the value with respect to (k_s, N), stored in parameter order.",
 "every parameter vector, every x",
 "Continuous domain.",
 "sources/plugins/nonlinear_function_blinn/function.cpp")
add("Schlick Fresnel value and Jacobian",
 "The Schlick Fresnel factor lies between R and 1 for R in [0,1], equals R at normal incidence and 1 at grazing, and its Jacobian is the derivative with respect to R.",
 "every configuration and R",
 "Continuous domain.",
 "sources/plugins/nonlinear_fresnel_schlick/function.cpp")
add("Shadowing terms",
 "The Schlick and Smith masking terms lie in [0,1] and their Jacobian is the derivative of the value.",
 "every configuration and parameter",
 "Continuous domain.",
 "sources/plugins/nonlinear_shadowing_schlick/function.cpp","sources/plugins/nonlinear_shadowing_smith/function.cpp")
add("Microfacet lobes: value and Jacobian",
 "For the Beckmann, Ward, ABC, Lafortune and spherical Gaussian lobes parametersJacobian is the derivative of value with respect to the entries of parameters().",
 "every configuration and parameter vector",
 "Continuous domain.",
 "sources/plugins/nonlinear_function_beckmann/function.cpp","sources/plugins/nonlinear_function_ward/function.cpp","sources/plugins/nonlinear_function_abc/function.cpp","sources/plugins/nonlinear_function_isotropic_lafortune/function.cpp","sources/plugins/nonlinear_function_spherical_gaussian/function.cpp")
add("Lobe parameter vector round trip",
 "For each nonlinear lobe setParameters(v) followed by parameters() returns v, and setParameters(parameters()) changes nothing; the vector has nbParameters() entries.",
 "every lobe, every number of channels, every parameter vector",
 "All sizes.",
 "sources/plugins/nonlinear_function_*/function.cpp:setParameters")
add("Error metrics are consistent norms",
 "The reported L1, L2, Linf, mse and rmse satisfy Linf <= L2 <= L1, rmse^2 = mse, L2^2 = n mse, vanish exactly on equal data, and are symmetric in both data sets.",
 "every pair of data sets and mask",
 "All sizes and values.",
 "sources/core/metrics.cpp")
add("MERL indexing",
 "The MERL loader maps each (theta_h, theta_d, phi_d) cell to a distinct index of the 180x90x90 table and get(i)/set(i) address the same cell; every angle lookup stays inside the table.",
 "every index, every configuration",
 "1.4 million cells and a continuous domain.",
 "sources/plugins/data_io/merl.cpp")
add("UTIA indexing",
 "The UTIA loader maps each (theta_i, phi_i, theta_v, phi_v, channel) cell to a distinct index of the table, and for every configuration of its domain interpolation reads only inside it and returns the stored value in the nodes.",
 "every index and configuration",
 "Continuous domain; large tables.",
 "sources/plugins/data_io/utia.cpp")
add("Grid interpolation",
 "Grid index encoding is a bijection between indices and multi-indices, the interpolation weights are non negative and sum to one, and interpolation at a grid node returns the stored value.",
 "every dimension, grid size and configuration",
 "All dimensions and sizes.",
 "sources/plugins/data_interpolants/grid.cpp")
add("Scattered data interpolation is a convex combination",
 "The RBF interpolant returns a convex combination of the neighbours' values, hence within their range.",
 "every set of neighbours",
 "All data.",
 "sources/plugins/data_interpolants/rbf.cpp")
add("Plugin search path",
 "The plugin search path is the list of the entries of ALTA_PLUGIN_PATH, in order, an empty entry standing for the installation directory; a provider is taken from the first directory with a library of the requested name that has the symbol, and an absent plugin never yields an object from another library.",
 "every environment string, file system and plugin name",
 "All strings.",
 "sources/core/plugins_manager.cpp")
add("Timer accumulates running time",
 "The elapsed time reported by a timer is the sum of the lengths of its completed start/stop intervals since the last reset, and the printed hours, minutes and seconds are that time.",
 "every history whose calls since the last reset alternate start and stop, and all clock readings",
 "All histories.",
 "sources/core/common.h:timer")
add("Fitting constraints express the vertical segments",
 "A coefficient vector satisfies the linear constraints built for a data point exactly when the rational function passes through the point's vertical segment.",
 "every data point, basis and coefficient vector",
 "All coefficient vectors.",
 "sources/plugins/rational_fitters/quadprog.cpp","sources/plugins/rational_fitters/eigen.cpp")
add("Data conversion tool keeps every convertible row",
 "data2data writes, for each input row above the hemisphere, the row expressed in the output parametrization, at the same index, with the same value (rows below the hemisphere are left zero unless --all-values is given); with interpolation, whatever the interleaving of the threads, row i of the output is the interpolated value at the abscissa of row i. Without change of parametrization and with --all-values the output is the input.",
 "every data set and pair of parametrizations, every interleaving of the threads",
 "All data sets and all interleavings.",
 "sources/softs/data2data/main.cpp")
add("Text data file round trip",
 "Loading, without filtering options, a file written by the text save gives a data set with the same dimensions, parametrizations and number of samples, each sample being equal to the saved one up to the error with which numbers are printed.",
 "every data set and every way of printing numbers",
 "All data sets, all printed numbers.",
 "sources/core/data_storage.cpp:save_data_as_text","sources/core/data_storage.cpp:load_data_from_text","sources/core/plugins_manager.cpp:load_data")
add("Masked error metrics",
 "With a mask, the error metrics are those of the samples whose mask value is not zero.",
 "every reference, tested data and mask of the same size",
 "All masks.",
 "sources/core/metrics.cpp:checkMaskSize","sources/core/metrics.cpp:evaluate")
add("Quadratic programming fitter is sound and complete",
 "When the quadprog rational fitter reports success the fitted function passes strictly inside every vertical segment of the data, for every channel; it always ends, and it succeeds exactly when, for one of the sizes it tries, each channel can be fitted by a rational function of that size whose denominator keeps its sign.",
 "every data set with ordered segments, every size range, every quadratic program solver that meets its documented contract",
 "All data sets, all solvers.",
 "sources/plugins/rational_fitters/quadprog.cpp:fit_data","sources/plugins/rational_fitters/quadratic_program.h")
add("Parallel quadratic programming fitter, for all schedules",
 "For every order in which its threads finish, the parallel rational fitter ends; when it reports success the function passes through every vertical segment of the data (where it is a number) and is, among the candidates of the first number of coefficients that has any, one with the smallest distance to the data (or the smallest delta with use_delta); the smallest distance and the success do not depend on the schedule.",
 "every data set with ordered segments, every range of sizes, every schedule of the threads, every solver that meets its documented contract",
 "All interleavings.",
 "sources/plugins/rational_fitters/quadprog_parallel.cpp:fit_data","sources/plugins/rational_fitters/quadratic_program.h:test_constraints")
add("The function made from --func is the one described",
 "For every description of a function by --func (a plugin, or a list [t1, ..., tn] of plugins with their options, each possibly multiplied by a --fresnel term and with --fixed-lobe / --fixed-fresnel) get_function ends, and when the plugins exist and are nonlinear functions it returns exactly the described sum of products, members in order, each with its own options; the text of the description survives being written in the header of a file and read back.",
 "every list of terms, all file systems and search paths, all parametrizations",
 "All descriptions, of any length.",
 "sources/core/plugins_manager.cpp:get_function","sources/core/function.cpp:compound_function","sources/core/function.cpp:product_function")
add("Function file round trip",
 "A function saved in the ALTA format with the arguments that made it, then loaded with the same plugins, is the same function: same dimensions, same input parametrization, same parameters and same values, up to the error with which numbers are printed; a function that cannot be loaded leaves the object unchanged.",
 "every function made of the plugins (single lobes, products with Fresnel terms, sums), all coefficients, all ways of printing numbers",
 "All functions, of any number of members, channels and lobes.",
 "sources/core/function.cpp:save","sources/core/plugins_manager.cpp:load_function","sources/core/function.cpp:compound_function","sources/plugins/nonlinear_function_ward/function.cpp:load")
add("Objective and derivatives of the nonlinear fitters",
 "For every set of parameters the solver tries, the four nonlinear fitters set them, and compute the differences between the data and the function (Eigen: one entry per channel and sample, possibly with the cosine factor; Ceres: one block per sample; NLopt, Ipopt: the sum of the squares), together with their exact derivatives when the function computes its Jacobian; parameters out of the bounds are refused by Eigen and Ceres.",
 "every data set, every function (sums, products, any lobe), every parameter vector",
 "All samples, all parameters: derivatives.",
 "sources/plugins/nonlinear_fitter_eigen/fitter.cpp:EigenFunctor","sources/plugins/nonlinear_fitter_ceres/fitter.cpp:CeresFunctor","sources/plugins/nonlinear_fitter_nlopt/fitter.cpp:f","sources/plugins/nonlinear_fitter_ipopt/fitter.cpp:altaNLP")
add("Starting point of a nonlinear fit",
 "bootstrap puts a function at a definite starting point and changes nothing else: with --bootstrap [v1, ..., vn] the parameters of a sum, a product or a lobe that reads the option become exactly v1, ..., vn; with --bootstrap FILE a sum or a product becomes the function saved in FILE; without the option each lobe gets the values documented for its class (the lowest value of each channel of the data for the diffuse term), whatever coefficients it had before (the constructors leave them uninitialised). The structure, the classes, the dimensions and the fixed members are kept in all cases.",
 "every function (sums, products, any lobe), all previous coefficients, every data set, all options, all files",
 "All functions and all memory contents.",
 "sources/core/function.cpp:bootstrap","sources/plugins/nonlinear_function_diffuse/function.cpp:bootstrap","sources/plugins/nonlinear_function_lafortune/function.cpp:bootstrap","sources/plugins/nonlinear_function_beckmann/function.cpp:bootstrap")
add("Bounds of the parameters",
 "For every function getParametersMin and getParametersMax have one entry per parameter, in the order of the parameters, the minimum is at most the maximum, and they do not change with the parameters; without the option bootstrap, the starting point of every function (without an sgd lobe) is within them.",
 "every function (sums, products, any lobe), every data set, all options",
 "All functions, of any number of members, channels and lobes.",
 "sources/core/function.cpp:getParametersMin","sources/core/function.cpp:getParametersMax","sources/plugins/nonlinear_function_isotropic_lafortune/function.cpp:getParametersMin")
add("Outcome of a nonlinear fit",
 "For every behaviour of the external solver, when one of the four nonlinear fitters (Eigen, Ceres, NLopt, Ipopt) reports success, the function is the starting point with exactly the parameters that the solver returned, whatever the solver evaluated in between; these are within the bounds of the function when the solver returns a point that the fitter accepted (Eigen, Ceres) or that is between the bounds it was given (NLopt, Ipopt), and the error of the fit is at most that of the starting point when the solver does not increase its own objective. Success or not, only the parameters are changed; a function that is not nonlinear is refused and left unchanged.",
 "every function (sums, products, any lobe), every data set, all options, all external solvers seen as interactive programs",
 "All behaviours of the solver: any number of evaluations, at any points, in any order.",
 "sources/plugins/nonlinear_fitter_eigen/fitter.cpp:fit_data","sources/plugins/nonlinear_fitter_ceres/fitter.cpp:fit_data","sources/plugins/nonlinear_fitter_nlopt/fitter.cpp:fit_data","sources/plugins/nonlinear_fitter_ipopt/fitter.cpp:fit_data")
add("Options of the nonlinear fitters",
 "Each documented option of a nonlinear fitter sets the setting of the solver that it names, with the documented default value, and a fit depends on no other option.",
 "all command lines, all functions, data sets and solvers",
 "All command lines: an option that is not listed never changes a fit.",
 "sources/plugins/nonlinear_fitter_nlopt/fitter.cpp:fit_data","sources/plugins/nonlinear_fitter_ceres/fitter.cpp:set_parameters","sources/plugins/nonlinear_fitter_ipopt/fitter.cpp:fit_data","sources/plugins/nonlinear_fitter_eigen/fitter.h")
add("Distances of a function to a data set",
 "L2_distance is the square root of the mean over the samples of the squared norm of the differences between the data and the function, Linf_distance the largest difference over the samples and channels; they are zero exactly for a function that has the values of the data, each bounds the other, the mean and variance printed are those of the differences, and a fit that does not increase its objective does not increase L2_distance.",
 "every function (nonlinear, rational, ...), every data set, all parametrizations",
 "All functions and all numbers of samples.",
 "sources/core/function.cpp:L2_distance","sources/core/function.cpp:Linf_distance","sources/softs/data2brdf/main.cpp")
add("Helmholtz reciprocity of the functions",
 "Exchanging the view and the light direction does not change the value of a function: for every function whose input parametrization is symmetric in the two directions, for the lobes evaluated on the two directions themselves, and for sums and products of such functions.",
 "every function (sums, products, any lobe), all coefficients, every pair of unit directions above the surface",
 "All pairs of directions, all compositions.",
 "sources/core/function.cpp:product_function","sources/core/function.cpp:compound_function","sources/plugins/nonlinear_function_ward/function.cpp:value","sources/plugins/nonlinear_fresnel_smith/function.cpp:value","sources/plugins/nonlinear_function_retrobeckmann/function.cpp:value")
add("Functions within their bounds are not negative",
 "A function whose parameters are within the bounds that it reports (getParametersMin, getParametersMax) has no negative value, for directions above the surface.",
 "every function (sums, products, any lobe), all coefficients within the bounds, every pair of unit directions above the surface",
 "All parameters and all pairs of directions.",
 "sources/core/function.cpp:getParametersMin","sources/plugins/nonlinear_function_blinn/function.cpp:getParametersMin","sources/plugins/nonlinear_function_sgd/function.cpp:value")
add("Statistics of a fit",
 "For every function and data set, fit2stat reports, for each channel, the L1, L2, L3 and Linf norms of the differences between the samples and the function, their mean square and its square root, and the mean squares weighted by the cosine of the light direction and by the product of the cosines of the light and the view; the file of statistics has the same numbers; they agree with L2_distance.",
 "every function, every data set, all parametrizations and numbers of channels",
 "All functions, all numbers of samples.",
 "sources/softs/fit2stat/fit2stat.cpp:convertDataToFunctionParam","sources/softs/fit2stat/fit2stat.cpp:fastNormComputation","sources/softs/fit2stat/fit2stat.cpp:fastWeightedErrors","sources/softs/fit2stat/fit2stat.cpp:main")
add("Moments of a data set",
 "For every interpolated data set and every choice of samples (fewer than 2^31 nodes) and dimensions, data2moments reports for each channel the sum over a regular grid of the domain of the values above the smallest one times the volume of a cell, and the weighted means of the monomials up to order 3; every node of the grid is counted exactly once; the sums are the integrals over the domain up to the variation of the integrand within a cell; adding a constant to the data does not change the moments and scaling it only changes the one of order 0; the moments satisfy the inequalities of means and variances.",
 "every data set, all numbers of dimensions, channels and samples, all interpolations",
 "All dimensions and numbers of samples; an integral.",
 "sources/softs/data2moments/main.cpp:main","sources/core/data.h:data")
add("Values of a function at the abscissae of a data set",
 "brdf2data keeps the number of samples, the abscissae and the confidence intervals of the data set and replaces the values of every sample by those of the function there, or by the difference of the two with export-diff: the function is at distance 0 of its export, exporting twice changes nothing, and the values and the differences exported add up to the data.",
 "every function, every data set, all parametrizations and numbers of channels",
 "All functions, all numbers of samples.",
 "sources/softs/brdf2data/main.cpp:main","sources/core/vertical_segment.cpp:set")
add("Plots of a function",
 "brdf2gnuplot prints one line for each sample of the data, in order, with its abscissa and the value of the function, or its difference with the data, or the index and the relative difference, the value being multiplied by the cosine with cos-plot; these are the samples that brdf2data writes. With polar-plot it prints the values of the function in the plane of incidence for regular elevations of the view on both sides of the normal.",
 "every function, every data set, all incident elevations and numbers of samples",
 "All functions, all numbers of samples, all angles.",
 "sources/softs/brdf2gnuplot/main.cpp:main")
add("Fit of a function to a data set, from the command line to the file",
 "data2brdf ends with the code 0 exactly when it writes a file, which it does when the data set has samples, the function asked for can be fitted and the fit succeeds; else it ends with 1 and writes nothing. The file holds the options of the command and the L2 and Linf distances to the data; read by any of the other commands, it gives back the function that was fitted, with the same distances to the data when the numbers are printed exactly.",
 "every data set, every plugin or sum of plugins with their Fresnel terms, every command line, every behaviour of the solver",
 "All data, all solvers, all coefficients.",
 "sources/softs/data2brdf/main.cpp:main","sources/core/plugins_manager.cpp:check_compatibility","sources/core/data.h:data_params")
add("Fit of a rational function by the smallest eigenvector",
 "When the fitter rational_fitter_eigen says that it succeeds, each channel of the function is the quotient p/q of polynomials of the sizes asked for, and no other coefficients of the same norm have a smaller sum over the samples of (p(x) - y q(x))^2. In particular data that are the values of a rational function of these sizes are given back at every sample.",
 "every data set, all sizes of the numerator and of the denominator, all numbers of channels, every eigenvalue solver that keeps its promises",
 "All data and all coefficients: an optimum.",
 "sources/plugins/rational_fitters/eigen.cpp:fit_data","sources/core/rational_function.cpp:update")
add("Fit of a rational function by least squares",
 "When the fitter rational_fitter_leastsquare says that it succeeds, each channel of the function is the quotient of polynomials of the sizes asked for, defined at every sample, and no other numerator gives a smaller sum of the squared differences to the data with this denominator: the function is not worse than any constant, data that are the values of a polynomial or the inverse of a polynomial are given back. The fit succeeds whenever the data have asymmetrical intervals.",
 "every data set, all sizes of the numerator and of the denominator, all numbers of iterations and of channels, every least squares solver that keeps its promises",
 "All data and all coefficients: an optimum.",
 "sources/plugins/rational_fitters/leastsquare.cpp:fit_data","sources/core/rational_function.cpp:update")
add("Function exported as a shader",
 "The text written when a sum of lobes and of products of lobes is exported as a shader (or for the BRDF explorer) is a program of the shading language, and for all directions of the light and of the view above the surface its function BRDF returns the value of the function, as a colour, with the coefficients written in the text.",
 "every sum of lobes and products of lobes of the exportable classes, all coefficients, every way of writing numbers, all pairs of directions",
 "All coefficients and all directions; a text that is compiled by another program.",
 "sources/core/function.cpp:save","sources/core/function.cpp:save_call","sources/core/function.cpp:save_body","sources/plugins/nonlinear_function_blinn/function.cpp:save_body","sources/plugins/nonlinear_function_ward/function.cpp:save_body")
add("Slices of BRDF",
 "A slice of a BRDF is an image of which each pixel is a sample: the samples are at the centres of the cells of a regular grid over the domain, no two at the same place; the value at any point of the domain is the value of a sample at most half a cell away in both coordinates, and at the place of a sample the value of that sample; storing a sample changes this sample only; an image that is saved and loaded gives the same samples in single precision, in whatever order its channels are stored.",
 "every image size, every content, every argument of the plugin (parametrization and azimuth), all points, all orders of the channels, all earlier contents of memory",
 "All points of a continuous domain and all sizes.",
 "sources/plugins/data_io/slice.cpp:get","sources/plugins/data_io/slice.cpp:set","sources/plugins/data_io/slice.cpp:value","sources/plugins/data_io/slice.cpp:load_data","sources/plugins/data_io/EXR_IO.h:LoadEXR","sources/plugins/data_io/EXR_IO.h:SaveEXR")
add("ASTM files",
 "The samples loaded from an ASTM file are its rows of numbers, in the order of the file and as many as the header declares, whatever other lines without a comma stand between them and whatever follows the last one; a file with the columns theta_i, phi_i, theta_s, phi_s, R, G, B gives colours over the angles of the light and of the view. A file with fewer rows than it declares is never loaded as if it were complete.",
 "every header, all names of columns, all numbers of rows, all texts of the numbers, every text between and after the rows, files with or without a last end of line",
 "All files.",
 "sources/plugins/data_io/astm.cpp:parse_header","sources/plugins/data_io/astm.cpp:compute_parameters","sources/plugins/data_io/astm.cpp:load_data","sources/core/args.h:get_vec")
add("Functions combined in Python",
 "In a Python session, f + g is a function whose value is the sum of the values of f and g, and f * g one whose value is their product; their parameters are those of f followed by those of g. This holds for the state that f and g have at any later moment: a function keeps the parts it was made of. set gives a function the vector of parameters that get then returns, changes no function made of other objects, and a vector of another size changes nothing.",
 "every sequence of operations of a session (get_function, +, *, set, get, value), all functions however nested, all vectors",
 "All histories of a session and all aliasing between functions.",
 "sources/python/alta.cpp:add_function","sources/python/alta.cpp:mult_function","sources/python/alta.cpp:set_function_params","sources/python/alta.cpp:get_function_params","sources/core/function.cpp:setParameters")
add("Data converted and evaluated in Python",
 "alta.data2data gives, for every sample of a data set, one sample of the result in the same order with the converted abscissa, the converted values and its interval; converting to the same parametrization changes nothing. alta.brdf2data gives to every sample of a data set the value of the function there, as the command brdf2data does.",
 "every data set, all parametrizations and numbers of channels, every function, all contents of memory",
 "All data sets and all earlier contents of memory.",
 "sources/python/alta.cpp:data2data","sources/python/alta.cpp:brdf2data","sources/core/vertical_segment.cpp:vertical_segment")
add("The lobe retroyoo",
 "An object of the plugin retroyoo takes the parameters that are set and returns them; its value is determined by its parameters and by the two directions, is not negative within the bounds it reports, has the derivatives that it returns, and the file it writes gives back its parameters.",
 "all parameters, numbers of channels, directions and earlier contents of memory, every way of writing numbers",
 "All coefficients, all earlier contents of memory.",
 "sources/plugins/nonlinear_function_retroyoo/function.cpp:value","sources/plugins/nonlinear_function_retroyoo/function.cpp:parameters","sources/plugins/nonlinear_function_retroyoo/function.cpp:load","sources/plugins/nonlinear_function_retroyoo/function.cpp:save_call")
add("Functions written again by brdf2brdf",
 "brdf2brdf loads the function of its input file and writes it in the format asked for: without --export (or with --export alta) the output file can be loaded, and gives the function of the input file up to the printing of its numbers; with --export shader or explorer it is the shader of the function. When the input cannot be loaded the program ends with an error and does not write a file.",
 "every file, every function (sums and products of lobes, rational functions), every command line, every way of writing numbers",
 "All files and all functions.",
 "sources/softs/brdf2brdf/main.cpp:main","sources/core/plugins_manager.cpp:load_function","sources/core/function.cpp:save","sources/core/rational_function.cpp:load")
add("Rational function exported as C++",
 "Saving a rational function with the option --export set to C++ writes a file that is a C++ program; its function brdf, called with a point, returns the value of the function at that point: one number per channel, with the coefficients as they are written in the file.",
 "every rational function (every dimension, every number of coefficients and channels, every domain), every point, every way of writing numbers in scientific notation",
 "All functions and all points; a test compiles one file and calls it at a few points.",
 "sources/core/function.cpp:save","sources/core/rational_function.cpp:rational_function_1d::save_body","sources/core/rational_function.cpp:rational_function::save_call")
add("Statistics between two data sets (data2stats)",
 "data2stats loads the input and the reference and writes a file that, read again, has for every channel six statistics (L1, L2, L3, L infinity, mean square, root mean square error) of the differences between the value of the input at the abscissae of the reference and the value of the reference. A data set compared with itself has statistics 0. When a file cannot be loaded the program ends with an error and writes nothing.",
 "all pairs of files (of the default class or of a plugin), every number of samples and channels, every parametrization, every command line, every way of writing numbers",
 "All pairs of data sets; a test compares a few.",
 "sources/softs/data2stats/data2stats.cpp:main","sources/core/metrics.cpp:errors::compute","sources/core/plugins_manager.cpp:load_data","sources/plugins/data_io/merl.cpp:value")
add("Rational functions fitted by data2brdf",
 "With one of the fitters of rational functions (eigen, least squares, quadprog) data2brdf ends with the exit code 0 exactly when it writes a file, and writes one when there are samples with intervals, no plugin of functions is used and the fit succeeds. The distances that it prints are those of the fitted function to the samples. The file can be loaded and gives a rational function on the domain of the data whose coefficients are those of the fitted function as they are printed, with the same values and distances when the printing is exact; with quadprog the function passes through the interval of every sample, in every channel.",
 "all data sets (samples, intervals, dimensions, channels), sizes of the polynomials, command lines, ways of writing numbers and solvers that keep their promises",
 "All data and all sizes; a test fits a few files.",
 "sources/softs/data2brdf/main.cpp:main","sources/plugins/rational_fitters/eigen.cpp:fit_data","sources/plugins/rational_fitters/leastsquare.cpp:fit_data","sources/plugins/rational_fitters/quadprog.cpp:fit_data","sources/core/rational_function.cpp:save_call","sources/core/plugins_manager.cpp:load_function")
add("Scripts in XML",
 "xml_cmd.py runs, for each action of the file in order, the program of the action once for its input (or once for each regular file of its input directory), until a command fails; nothing else is run. The program gets the options of the action: its function with its parameters and its Fresnel term (or the sum of its functions, in order, each with its own), its plugins, its parameters, the input and the output, the first value being kept when an option is given twice; and the function that it makes from them is the one that the action describes.",
 "every file (every number of actions, functions, plugins and parameters), every behaviour of the programs and of the file system; names and values without characters special for the shell, values that the command line can carry",
 "All scripts and all outcomes of the programs; a test runs a few scripts.",
 "sources/scripts/xml_cmd.py:parseConfiguration","sources/scripts/xml_cmd.py:parseFunction","sources/scripts/xml_cmd.py:parseFunctions","sources/scripts/xml_cmd.py:parseAction","sources/core/args.h:arguments","sources/core/plugins_manager.cpp:get_function")
add("A fitter used several times from Python",
 "A fit from Python with options (fit_data(data, function, options)) gives the result and the function that data2brdf gives with these options, whatever the same fitter object was used for before; a fit without options is the one with no option at all.",
 "all the fitters, all histories of calls of fit_data on one fitter object (with options or without, on any data and functions), all options, all contents of the memory of a new object, all solvers",
 "All histories of calls; a test makes one or two fits with a new object.",
 "sources/python/alta.cpp:fit_data_with_args","sources/python/alta.cpp:fit_data_without_args","sources/plugins/rational_fitters/eigen.cpp:set_parameters","sources/plugins/rational_fitters/leastsquare.cpp:set_parameters","sources/plugins/rational_fitters/quadprog.cpp:set_parameters","sources/plugins/nonlinear_fitter_ceres/fitter.cpp:set_parameters")
add("Options and vectors made in Python",
 "The options made from a dictionary are those of a command line that gives each option once with the text of its value: every function, data object or fit made from them is the same. `options[k]` is the text of the value, empty for a key that is not there, and `update` changes one option and no other. A vector given as the value of an option is read as the numbers that are printed. A vector is changed by an assignment to it and by nothing else: a copy, a sum or a difference is a new vector, with the coordinates that mathematics gives it, and an index outside of a vector is an error.",
 "every dictionary (every list of keys and values, also with two keys of the same text), every key, every script (sequence of constructions, copies, sums, differences and assignments) and every expression of sums and differences of any depth and dimension",
 "Aliasing between vectors, the order of a dictionary and the text of a value matter for all the sequences of commands; a test runs a few of them.",
 "sources/python/wrapper_args.h:python_arguments","sources/python/wrapper_args.h:register_args","sources/python/wrapper_vec.h:vec_set_item","sources/python/wrapper_vec.h:vec_add","sources/python/wrapper_vec.h:vec_sub","sources/python/wrapper_vec.h:vec_str","sources/python/wrapper_vec.h:register_vec","sources/core/args.h:update","sources/core/args.h:get_vec")
add("Functions saved and loaded from Python",
 "What f.save(file) wrote is read by g.load(file) in a function made in the same way: g is then f as it was when it was saved, with its parameters as they are printed, even if f was changed since; nothing else is changed, neither the other objects nor the other files. load_function(file) gives a new function that is f. A file that cannot be read is an error, and leaves the function as it was.",
 "every function made of lobes, sums and products (that share no plugin object, of the classes that C56 reads back), every script (every sequence of constructions, changes, saves and loads), every printing of the numbers",
 "All the sequences of saves, loads and changes on all functions; a test runs one.",
 "sources/python/alta.cpp:load_from_file_with_args","sources/python/alta.cpp:load_from_file","sources/python/alta.cpp:save_function_without_args","sources/python/alta.cpp:load_function","sources/core/args.h:parse_header","sources/core/function.cpp:save","sources/core/plugins_manager.cpp:load_function")
add("Isotropy of the functions",
 "Turning the view and the light direction together about the normal does not change the value of a function: for every function whose input parametrization is one of isotropic materials, for the lobes without preferred axis evaluated on the two directions themselves, and for sums and products of such functions.",
 "every function (sums, products, any lobe), all coefficients, every pair of unit directions above the surface, every angle",
 "All pairs of directions, all angles, all compositions.",
 "sources/core/function.cpp:product_function","sources/core/function.cpp:compound_function","sources/plugins/nonlinear_function_ward/function.cpp:value","sources/plugins/nonlinear_function_lafortune/function.cpp:value","sources/plugins/nonlinear_function_retrobeckmann/function.cpp:value","sources/plugins/nonlinear_function_spherical_gaussian/function.cpp:compute_dot")
add("Files converted by data2data",
 "data2data ends with the exit code 0 exactly when it writes its output. The text or binary file that it writes can be loaded, and holds one sample for each sample of the input, in the same order: its coordinates in the parametrization asked for, and its values (zeros below the surface, but with --all-values). A text file converted to a binary file, and then back to text, is the same file. With an output made by a plugin, every sample of the output has the value of the input at its coordinates, for every schedule of the threads, or with --splat the converted samples of the input in the same places.",
 "every input file and command line, every number of samples and channels, all parametrizations, all outputs and inputs made by plugins, all schedules of the threads, all earlier contents of memory, every way of writing numbers",
 "All data sets and all schedules; a test converts a few files.",
 "sources/softs/data2data/main.cpp:main","sources/softs/data2data/main.cpp:convert","sources/softs/data2data/main.cpp:convert_vertical_segment","sources/softs/data2data/main.cpp:convert_with_interpolation","sources/softs/data2data/main.cpp:compute_parameters","sources/core/plugins_manager.cpp:load_data","sources/core/plugins_manager.cpp:get_data","sources/core/data.cpp:save")
add("Functions exported by brdf2data",
 "brdf2data ends with an exit code other than 0 when it does not write its output. The file that it writes holds one sample for each sample of the template (or of the grid of the plugin), in the same order, with its abscissa and the value of the function there, or with --export-diff the value of the template less the one of the function. A function fitted by data2brdf and exported with --export-diff on its data gives a file whose root mean square and largest absolute value are the L2 and L-infinity distances that data2brdf printed; one fitted with quadprog and exported gives values in the intervals of the data.",
 "every function file, template and command line, every number of samples and channels, all parametrizations, all templates made by plugins, all fitters of the model, every way of writing numbers",
 "All functions and all data sets; a test exports one.",
 "sources/softs/brdf2data/main.cpp:main","sources/core/plugins_manager.cpp:load_function","sources/core/plugins_manager.cpp:load_data","sources/core/plugins_manager.cpp:get_data","sources/core/data.cpp:save","sources/softs/data2brdf/main.cpp:main","sources/core/function.cpp:L2_distance","sources/core/function.cpp:Linf_distance")
add("Statistics of a fit, from files to a file (fit2stat)",
 "fit2stat loads the data of --input and the function of --brdf and writes a file that, read again, has ten statistics per channel of the differences between the samples and the function: L1, L2, L3, L infinity, mean square and root mean square errors, and the last two weighted by the cosine of the light and by both cosines. On the data of a fit of data2brdf, the sum over the channels of the mean square errors is the square of the L2 distance printed by data2brdf, and the largest L infinity its L infinity distance. It writes nothing when the exit code is not 0, and the exit code is 1 when a file is missing or cannot be loaded.",
 "every file of data and of a function (nonlinear or rational), every number of samples and channels, every command line, every way of writing numbers",
 "All data, functions and command lines; a test runs one pair of files.",
 "sources/softs/fit2stat/fit2stat.cpp:main","sources/softs/fit2stat/fit2stat.cpp:convertDataToFunctionParam","sources/softs/fit2stat/fit2stat.cpp:computeCosineFactorsFromData","sources/core/plugins_manager.cpp:load_function","sources/core/plugins_manager.cpp:load_data","sources/core/common.cpp:operator<<")
add("Plots of brdf2gnuplot, from files to a file",
 "brdf2gnuplot ends with an exit code other than 0 when it does not write its output. Its file, read again, is a table with one line for each sample of --data-file, in order: the abscissa and the value of the function there (with --cos-plot multiplied by the cosines of the two directions), with --error the differences with the values of the data, with --linear_error the index of the sample and the relative differences; with --polar-plot one line for each elevation, samples / 2 on each side of the normal. The lines are those of the file of brdf2data for the same files; for a function fitted by data2brdf the root mean square and the largest absolute value of the differences are the L2 and L-infinity distances that data2brdf printed.",
 "every function file (nonlinear or rational), data file, plugin of data and command line, every number of samples and channels, all parametrizations, all fitters of the model, every way of writing numbers",
 "All functions, data and command lines; a test makes one plot.",
 "sources/softs/brdf2gnuplot/main.cpp:main","sources/core/plugins_manager.cpp:load_function","sources/core/plugins_manager.cpp:load_data","sources/softs/brdf2data/main.cpp:main","sources/softs/data2brdf/main.cpp:main","sources/core/function.cpp:L2_distance","sources/core/function.cpp:Linf_distance")
add("Moments of a data file, from the file to a file (data2moments)",
 "data2moments ends with an exit code other than 0 when it does not write its output. Its file, read again, has ten moments per channel up to order 3, by name: the integral over the domain of the values above the smallest one, by the sum over the regular grid of --samples (100 per dimension by default), and the means of the products of the coordinates of --dim (the first two by default) weighted by these values. On a MERL file the values are the colours of the cells. The options are lists of whole numbers between brackets. Data that cannot be interpolated are refused, with the exit code 1 and no file.",
 "every interpolating data object and MERL file, all numbers of samples that fit in an int, every command line, every way of writing numbers",
 "All data and command lines; a test runs one file.",
 "sources/softs/data2moments/main.cpp:main","sources/core/args.h:get_vec","sources/core/plugins_manager.cpp:load_data","sources/core/common.cpp:operator<<","sources/plugins/data_io/merl.cpp:value","sources/plugins/data_io/merl.cpp:MERL")
add("Files whose writing was interrupted",
 "When the writing of a file was interrupted (a crash, a full disk) after any number of bytes, loading the file either fails or gives what was written: a data file gives none, or all, or the first samples with their values, and a function file gives the function.",
 "every data set, every function, every number of bytes written before the interruption, every way of writing numbers",
 "All crash points of all files; a test cuts one file at one place.",
 "sources/core/data_storage.cpp:save_data_as_text","sources/core/data_storage.cpp:save_data_as_binary","sources/core/data_storage.cpp:load_data_from_text","sources/core/data_storage.cpp:load_data_from_binary","sources/core/args.h:parse_header","sources/core/plugins_manager.cpp:load_data","sources/core/plugins_manager.cpp:load_function","sources/plugins/data_io/merl.cpp:read_brdf","sources/plugins/nonlinear_function_beckmann/function.cpp:load")
add("Files saved again and again do not drift",
 "A data file converted by data2data, then the result converted again, any number of times, to text or binary files in any order, loads as the same data at each step, and each text file of the history is the first one. A function or rational function file read and written again by brdf2brdf is the same file from the first run on, whatever the number of runs: what is lost is lost by the first one.",
 "every length of history and every step of it, every data set (all sizes), function (sums, products, all classes that C56 reads back) and rational function, all options, schedules of the threads and contents of memory in each run, all ways of writing numbers for which a number read from a file is written in the same way",
 "Histories of any length on all files; a test makes one round trip.",
 "sources/softs/data2data/main.cpp:main","sources/softs/brdf2brdf/main.cpp:main","sources/core/data.cpp:save","sources/core/plugins_manager.cpp:load_data","sources/core/plugins_manager.cpp:load_function","sources/core/function.cpp:save","sources/core/rational_function.cpp:save_call","sources/plugins/nonlinear_function_retrobeckmann/function.cpp:load")
add("Text data files joined, cut or sorted",
    "A text data file followed by another one whose header says the same, the first one ending at the end of a line, is loaded as all the samples of the first and then all the samples of the second, and the bounds of the result are those of the two together. The lines below the header in another order give the same samples in another order and the same bounds; with lines removed, the samples of the lines that stay. A file the command could not load is not made loadable by joining it. No distance between a function and a data set depends on the order of the samples: over joined files the squares of the L2 distances add up with the numbers of samples as weights, and the L-infinity distance is the greater of the two. Whether the quadratic programming fitter finds a function does not depend on the order of the samples.",
    "every text file with a header, every list of lines below it, every order, selection and cut of these lines, every second file, every function with its values at the samples, every option of the loading",
    "Users concatenate, sort and cut measurement files with text tools; a test loads one file in one order and cannot compare with every other order or cut, nor with a program that keeps something from one line for the next.",
    "sources/core/data_storage.cpp:load_data_from_text",
    "sources/core/plugins_manager.cpp:load_data",
    "sources/core/args.h:parse_header",
    "sources/core/vertical_segment.cpp:vertical_segment",
    "sources/core/function.cpp:L2_distance / Linf_distance",
    "sources/plugins/rational_fitters/quadprog.cpp:fit_data")

add("Files converted and exported, sample by sample",
    "data2data, run to a text file, on two text files joined writes the first of the two converted files followed by the lines of the second below its header, and it writes a file exactly when it does for both; with the samples in another order it writes the same lines in another order below the same header; with samples removed it writes the lines of the samples that stay. The same holds of brdf2data for the template on which a function is exported, with or without --export-diff.",
    "every text file that is loaded, every second file with a header that says the same, every order and selection of the samples, every option of the two programs, every function file that is loaded, every state of the disk, uninitialized memory and schedule of the threads in each run",
    "The outputs of runs on different inputs are compared, for every way of cutting and sorting a file; a program that keeps something of one sample for the next passes the tests on single files.",
    "sources/softs/data2data/main.cpp:convert_vertical_segment / main",
    "sources/softs/brdf2data/main.cpp:main",
    "sources/core/plugins_manager.cpp:load_data",
    "sources/core/data_storage.cpp:load_data_from_text / save_data_as_text",
    "sources/core/data.cpp:save")

add("Statistics of files that are sorted or repeated",
    "fit2stat writes the same statistics when the samples of the data file are in another order, and data2stats when the samples of the reference are. When every sample is there twice, the means (MSE, RMSE, and in fit2stat the weighted ones) and the maximum (LINF) that are written are the same as when it is there once.",
    "every text file of samples that is loaded, every order of the samples, every function file or tested data file, every name of the files, every state of the uninitialized memory, in the runs in which the values can be compared",
    "The outputs of two runs are compared, for every order of the samples; a sum that skips a sample, or is divided by another count, is right on some files.",
    "sources/softs/fit2stat/fit2stat.cpp:fastNormComputation / fastWeightedErrors / main",
    "sources/softs/data2stats/data2stats.cpp:main",
    "sources/core/metrics.cpp:compute / evaluate / fastNormComputation",
    "sources/core/plugins_manager.cpp:load_data",
    "sources/core/data_storage.cpp:load_data_from_text")

add("Statistics of joined files",
    "For two text files of samples and the file made of one after the other, in each channel: the norms L1, L2 and L3 that fit2stat and data2stats write for the joined file are not below those written for either file, LINF is the larger of the two, and MSE and RMSE (in fit2stat also the weighted ones) are between the two.",
    "all pairs of text files with samples and headers that say the same, every function file or tested data file, every name of the files, every state of the uninitialized memory, every monotone printing of numbers, in the runs in which the values can be compared",
    "The outputs of three runs are compared, for every way of cutting a file; sums that start from another value or a wrong count are right on some files.",
    "sources/softs/fit2stat/fit2stat.cpp:fastNormComputation / fastWeightedErrors / main",
    "sources/softs/data2stats/data2stats.cpp:main",
    "sources/core/metrics.cpp:compute / evaluate / fastNormComputation",
    "sources/core/plugins_manager.cpp:load_data",
    "sources/core/data_storage.cpp:load_data_from_text")

add("Plots of files that are joined, sorted or cut",
    "brdf2gnuplot, run on two text files of samples joined, writes the lines of the plot of the first and then those of the second (with --linear_error the lines are numbered again from the start); it writes a plot exactly when it does for both, if both have samples. With the samples in another order it writes the same lines in another order; with samples removed, but not all, the lines of those that stay.",
    "every text file that is loaded, every second file with a header that says the same, every order and selection of the samples, every option (values, differences, relative differences, weighted or not by the cosines), every function file that is loaded, every state of the disk in each run",
    "The outputs of runs on different inputs are compared, for every way of cutting and sorting a file; a program that keeps something of one sample for the next passes the tests on single files.",
    "sources/softs/brdf2gnuplot/main.cpp:main",
    "sources/core/function.cpp:L2_distance / Linf_distance",
    "sources/core/plugins_manager.cpp:load_data",
    "sources/core/data_storage.cpp:load_data_from_text")

if __name__=="__main__":
    open('/verif/properties.jsonl','w').write("".join(json.dumps(p)+"\n" for p in P))
    print(len(P))

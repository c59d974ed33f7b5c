{"id": "C01", "title": "rectangle() returns exactly the lattice", "statement": "rectangle(Nx,Ny,Bx,By,origin) fails its assertion exactly when a count is negative and neither is zero; for Nx,Ny>=0 it returns exactly Nx*Ny points, a point is in the result iff it is origin+(i*Bx,j*By) with 0<=i<Nx, 0<=j<Ny, the list is ordered x-major, and for positive spacings no borehole appears twice.", "quantifier": "all integers Nx, Ny, all spacings and origins", "why_tests_cant": "infinitely many sizes and spacings; a test fixes a handful of grids", "anchors": ["ghedt/coordinates.py:rectangle"]}
{"id": "C02", "title": "open_rectangle() returns exactly the perimeter", "statement": "open_rectangle(Nx,Ny,Bx,By) never fails its assertion for Nx,Ny>=0; for Nx,Ny>2 it returns exactly the perimeter points of the Nx x Ny lattice, 2*Nx+2*Ny-4 of them with no duplicates; otherwise it is the full rectangle.", "quantifier": "all Nx, Ny and spacings", "why_tests_cant": "all sizes at once, including the boundary between hollow and full", "anchors": ["ghedt/coordinates.py:open_rectangle"]}
{"id": "C03", "title": "L, lopsided-U and C shapes have the promised points", "statement": "L_shape, lop_U and C_shape never fail their assertions when every side count is at least one, return exactly the points of the named shape (bottom row, left column, right column, partial top row), have the promised count, and contain no borehole twice (lop_U: for at least two columns; C_shape: for at least two columns and two rows, provided the top row stops short of the right column, Nx_2 <= Nx_1-2; otherwise the top right borehole comes twice). C_shape with no row fails its assertion.", "quantifier": "all side counts >= 1 and positive spacings", "why_tests_cant": "all sizes", "anchors": ["ghedt/coordinates.py:L_shape", "ghedt/coordinates.py:lop_U", "ghedt/coordinates.py:C_shape"]}
{"id": "C04", "title": "U_shape() cannot return a U", "statement": "For every Nx>2 and Ny>1, U_shape(Nx,Ny,Bx,By) raises AssertionError (the right leg is never generated); it only returns for degenerate sizes, where it returns the full rectangle. The intended property (a U of 2*Ny+Nx-2 boreholes) is false of the code.", "quantifier": "all Nx, Ny and spacings", "why_tests_cant": "a universally failing branch with no test in the repository; the claim is that no input succeeds", "anchors": ["ghedt/coordinates.py:U_shape"]}
{"id": "C05", "title": "zoned_rectangle(): exact guard, count and containment", "statement": "zoned_rectangle raises ValueError exactly when Nix>Nx-2 or Niy>Ny-2, whatever the integer counts; otherwise, for positive interior counts, it returns perimeter + Nix*Niy boreholes with no duplicates: the outline of the Nx x Ny grid and, strictly inside it, the points that divide the two sides into Nix+1 and Niy+1 equal parts.", "quantifier": "all integer counts, all positive spacings", "why_tests_cant": "all sizes and spacings", "anchors": ["ghedt/coordinates.py:zoned_rectangle"]}
{"id": "C06", "title": "transpose_coordinates() is an involution that swaps axes", "statement": "transpose_coordinates swaps x and y of each borehole in place, keeps count and order, and applying it twice gives the original list.", "quantifier": "all coordinate lists", "why_tests_cant": "all lists of any length", "anchors": ["ghedt/coordinates.py:transpose_coordinates"]}
{"id": "C07", "title": "square_and_near_square(): exact guard and strictly growing sizes", "statement": "It raises ValueError exactly when lower<1, upper<1 or upper<lower; otherwise it returns the fields lower x lower, lower x (lower+1), ..., upper x (upper+1) in that order, with strictly increasing borehole counts.", "quantifier": "all integer bounds and spacings", "why_tests_cant": "the bisection search relies on monotone sizes for every bound", "anchors": ["ghedt/domains.py:square_and_near_square"]}
{"id": "C08", "title": "near-square design overshoots the land length", "statement": "The largest field of the near-square Design domain has one side of exactly floor(length/B)*B <= length but the other side is B longer, and that side exceeds the user's `length` for every input; all earlier fields fit.", "quantifier": "all positive length and B", "why_tests_cant": "needs reasoning about floor for all reals, not one spacing", "anchors": ["ghedt/design.py:Design.__init__", "ghedt/utilities.py:number_of_boreholes", "ghedt/domains.py:square_and_near_square"]}
{"id": "C09", "title": "rectangular(): every field lies inside the land", "statement": "Every borehole of every field returned by rectangular(length_x,length_y,B_min,B_max) satisfies 0<=x<=length_x and 0<=y<=length_y, for both orientations of the land.", "quantifier": "all positive lengths and spacings with 0<B_min, 0<B_max", "why_tests_cant": "continuous parameter space with floor/ceil boundaries", "anchors": ["ghedt/domains.py:rectangular"]}
{"id": "C10", "title": "rectangular(): spacing within the allowed range", "statement": "Every field in the result is a uniform rectangle whose spacing B satisfies B_min<=B<=B_max.", "quantifier": "all positive lengths and spacings", "why_tests_cant": "floor/ceil boundaries on a continuum", "anchors": ["ghedt/domains.py:rectangular"]}
{"id": "C11", "title": "rectangular(): borehole counts strictly increase", "statement": "Borehole counts strictly increase along the returned domain, starting at one borehole whenever the domain is nonempty. The fields are exactly: the line growing from one borehole, the rows added to it, and one field for each admissible number of boreholes along the longer side that changes the number of rows.", "quantifier": "all positive lengths and spacings", "why_tests_cant": "the bisection needs order for every input", "anchors": ["ghedt/domains.py:rectangular"]}
{"id": "C12", "title": "bi_rectangular(): counts strictly increase and spacings respected", "statement": "bi_rectangular returns fields of strictly increasing size starting with a single borehole; each field is a rectangle with spacings b_1 in [B_min,B_max_1] and b_2<=B_max_2 fitting the (longer, shorter) sides; with transpose the axes are swapped. The fields are exactly: the line growing from one borehole, the rows added to it, and one field for each admissible number along the longer side with the smallest admissible number along the shorter side.", "quantifier": "all positive lengths and spacings", "why_tests_cant": "continuum with floor/ceil", "anchors": ["ghedt/domains.py:bi_rectangular"]}
{"id": "C13", "title": "bi_rectangle_nested(): every nested field lies inside the land", "statement": "Every borehole of every field of every nested domain satisfies 0<=x<=length_x and 0<=y<=length_y in both orientations, every nested domain starts with one borehole at the origin and sizes strictly increase inside it, and there is exactly one nested domain per admissible row count of the shorter side, in increasing order, made of the fields of C12 ending in that many full rows.", "quantifier": "all positive lengths and spacings", "why_tests_cant": "continuum with floor/ceil; nested loops", "anchors": ["ghedt/domains.py:bi_rectangle_nested"]}
{"id": "C14", "title": "zoned_rectangle_domain() terminates without ever raising", "statement": "For positive lengths and n_x,n_y>=3 the loop terminates, the interior-count guard never fires, each step adds exactly one interior row or column - which one depends on the counts only, not on the lengths - the domain has n_x+n_y-5 fields, counts strictly increase, and the last field has n_x*n_y boreholes. If n_x<3 or n_y<3 the call raises.", "quantifier": "all positive lengths, all n_x,n_y", "why_tests_cant": "termination and absence of the ValueError depend on an inequality between two real ratios at every iteration", "anchors": ["ghedt/domains.py:zoned_rectangle_domain"]}
{"id": "C15", "title": "zoned_rectangle_domain(transpose=True) leaves its first field untransposed", "statement": "With transpose=True every field except the first has its axes swapped; the first never does. Hence for non-square lands the first field lies outside the swapped land.", "quantifier": "all positive lengths, n>=3", "why_tests_cant": "only visible for length_y>length_x; universally true of the code", "anchors": ["ghedt/domains.py:zoned_rectangle_domain"]}
{"id": "C16", "title": "bi_rectangle_zoned_nested(): index walk is always in range", "statement": "If the land is longer than the maximum spacing in each direction and the candidate ranges are nonempty, bi_rectangle_zoned_nested() never raises; the visited pairs of counts form a path of len1+len2-1 pairs from the smallest to the largest pair, each step increasing exactly one of the two counts by one, alternately and the longer side first until one of them is at its largest; nested domain i is the zoned domain of the i-th pair, the first one preceded by start-up shapes of 1,2,3,...,2*N1+2*N2-4 boreholes: a growing line, L, U and closing row. If a side is not longer than its maximum spacing the call raises ValueError; with an empty range of counts for a side it raises IndexError, or returns an empty list if the two sides together have at most one admissible count.", "quantifier": "all lengths/spacings giving nonempty candidate ranges", "why_tests_cant": "an index invariant over an unbounded loop", "anchors": ["ghedt/domains.py:bi_rectangle_zoned_nested"]}
{"id": "C17", "title": "bi_rectangle_zoned_nested(): growth and containment when length_x>=length_y", "statement": "For length_x>=length_y and side counts >=3 every returned field lies inside the land and every nested domain has strictly increasing borehole counts; the first nested domain starts from one borehole. For either orientation no field is empty or has two boreholes at one place, the first field is the single borehole at the origin and the last field of the last domain has one borehole for each pair of the largest admissible counts.", "quantifier": "all lengths length_x>=length_y>0 and spacings", "why_tests_cant": "continuum with floor/ceil", "anchors": ["ghedt/domains.py:bi_rectangle_zoned_nested"]}
{"id": "C18", "title": "bi_rectangle_zoned_nested() leaves the land when length_y>length_x", "statement": "For all admissible inputs with length_y>length_x every nested domain contains a field with a borehole outside [0,length_x]x[0,length_y] (the start-up shapes use the unswapped lengths and the first zoned field is not transposed). The containment property is false of the code for that orientation.", "quantifier": "all admissible inputs with length_y>length_x; contrast with C17", "why_tests_cant": "a test would have to think of the orientation; the theorem pins the cause", "anchors": ["ghedt/domains.py:bi_rectangle_zoned_nested"]}
{"id": "C19", "title": "polygonal_land_constraint(): no borehole outside the property or inside the building", "statement": "Every borehole of every returned field was classified not-outside by the property polygon and strictly outside by the building polygon; the sizes within each nested domain are those of what is left of the fields with a borehole on the property, in non-decreasing order; there are as many nested domains as before the cut-out.", "quantifier": "all polygons, all point-in-polygon classifiers, all spacings", "why_tests_cant": "polygons are unbounded input; classification is external", "anchors": ["ghedt/domains.py:polygonal_land_constraint", "ghedt/feature_recognition.py:remove_cutout"]}
{"id": "C20", "title": "polygonal_land_constraint() can return an empty borehole field", "statement": "If the building polygon covers all boreholes of some field that survived the property cut, that nested domain contains an empty field, and it is first after reordering; searching it (or any domain whose first field is empty) then raises IndexError, or ZeroDivisionError if the flow is given for the whole system. The property 'all returned fields are non-empty' is false.", "quantifier": "existential, plus the exact condition", "why_tests_cant": "needs a land/building combination nobody tests", "anchors": ["ghedt/domains.py:polygonal_land_constraint", "ghedt/utilities.py:borehole_spacing"]}
{"id": "C21", "title": "reorder_domain() sorts sizes but may lose fields", "statement": "reorder_domain returns as many fields as it was given, each one from the input, with the sizes being exactly the input sizes in ascending order; if sizes are pairwise distinct it is a permutation of the input; with equal sizes it repeats the first such field and drops the others.", "quantifier": "all lists of fields", "why_tests_cant": "all lists; the failure needs equal sizes", "anchors": ["ghedt/domains.py:reorder_domain"]}
{"id": "C22", "title": "verify_excess() decides monotonicity", "statement": "The flag is True iff the sequence never increases from one element to the next, and there is one difference per adjacent pair, whose sum telescopes to last-first.", "quantifier": "all sequences", "why_tests_cant": "all lengths and values", "anchors": ["ghedt/domains.py:verify_excess"]}
{"id": "C23", "title": "remove_cutout() keeps exactly the right points, in order", "statement": "For each combination of remove_inside/keep_contour the result is the sublist of the input, in order and with unchanged coordinates, of points whose classification is allowed; removing inside and removing outside partition the points off the contour.", "quantifier": "all coordinate lists and classifiers, all four flag combinations", "why_tests_cant": "all lists", "anchors": ["ghedt/feature_recognition.py:remove_cutout", "ghedt/feature_recognition.py:scale_coordinates"]}
{"id": "C24", "title": "determine_largest_rectangle() bounds the property", "statement": "The returned closed rectangle has a corner at the origin and upper corner (max(0,max x),max(0,max y)): it contains every vertex with nonnegative coordinates and is the smallest such; vertices with negative coordinates lie outside it.", "quantifier": "all vertex lists", "why_tests_cant": "all polygons", "anchors": ["ghedt/feature_recognition.py:determine_largest_rectangle"]}
{"id": "C25", "title": "polygonal_area() is a geometric area", "statement": "polygonal_area is nonnegative, invariant under cyclic rotation of the corner list, reversal and translation, scales with the square of a scale factor, and equals length_x*length_y on make_rectangle_perimeter; for a polygon whose sides all go round its first corner in one direction it is the sum of the areas of the triangles spanned by that corner and the sides.", "quantifier": "all corner lists", "why_tests_cant": "invariance laws over all polygons", "anchors": ["ghedt/utilities.py:polygonal_area", "ghedt/utilities.py:make_rectangle_perimeter"]}
{"id": "C26", "title": "side length, spacing and borehole count are mutually inverse", "statement": "number_of_boreholes(length_of_side(N,B),B)=N for floor and ceil; spacing_along_length(length_of_side(N,B),N)=B for N!=1; with floor the N boreholes fit in the length and N+1 do not; with ceil the resulting spacing never exceeds B.", "quantifier": "all integers N and positive lengths/spacings", "why_tests_cant": "exact arithmetic laws for all values", "anchors": ["ghedt/utilities.py:number_of_boreholes", "ghedt/utilities.py:length_of_side", "ghedt/utilities.py:spacing_along_length"]}
{"id": "C27", "title": "borehole_spacing() is at least the borehole radius and determined by the first two boreholes", "statement": "borehole_spacing raises IndexError on an empty field (its own ValueError is unreachable), returns r_b for a single borehole, otherwise max(r_b, distance of the first two); for rectangle(Nx,Ny>=2) it is max(r_b,|By|), for open/zoned rectangles max(r_b,|Bx|).", "quantifier": "all coordinate lists and radii", "why_tests_cant": "all fields", "anchors": ["ghedt/utilities.py:borehole_spacing"]}
{"id": "C28", "title": "sign() and check_bracket() detect a strict sign change, and zero crashes", "statement": "For nonzero excesses check_bracket(sign a, sign b) is True iff a and b have strictly opposite signs; sign raises ZeroDivisionError exactly on zero.", "quantifier": "all values", "why_tests_cant": "exact characterisation over all numbers", "anchors": ["ghedt/utilities.py:sign", "ghedt/utilities.py:check_bracket"]}
{"id": "C29", "title": "compute_mpe() laws", "statement": "compute_mpe raises AssertionError iff lengths differ, raises ZeroDivisionError iff the lists are empty or an actual value is zero; it is 0 when predicted=actual, and scaling both lists by a nonzero constant does not change it; if predictions exceed actual positive values everywhere the result is positive.", "quantifier": "all lists", "why_tests_cant": "all lists", "anchors": ["ghedt/utilities.py:compute_mpe"]}
{"id": "C30", "title": "Bisection search returns a feasible field", "statement": "If the integer bisection is entered and search() returns, the selected field has excess temperature <=0 at maximum height, the key is a valid index and the coordinates are domain[key]. Holds for every excess function, monotone or not, and every max_iter.", "quantifier": "all domains, all (arbitrary) excess functions, all max_iter", "why_tests_cant": "the excess function is an arbitrary simulator; all histories of the bisection", "anchors": ["ghedt/search_routines.py:Bisection1D.search"]}
{"id": "C31", "title": "Bisection search finds the smallest feasible field on unimodal domains", "statement": "If the excess at maximum height strictly decreases along the domain, is never exactly 0, changes sign, and len(domain)<=2^max_iter+1, the selected key is the smallest index with excess <=0. With ties in the excess the smallest index can be missed.", "quantifier": "all domains, strictly decreasing excess functions", "why_tests_cant": "optimality over all functions and sizes", "anchors": ["ghedt/search_routines.py:Bisection1D.search"]}
{"id": "C32", "title": "search() outcomes are exactly characterised", "statement": "When the simulations themselves do not raise, search() never returns (None, None); it raises ValueError exactly when both end excesses are negative, or both positive, and the first field does not bracket between minimum and maximum height; ZeroDivisionError when one of the initial excesses that is looked at (or a probed one) is exactly 0; IndexError only for an empty domain; nothing else.", "quantifier": "all domains and excess functions", "why_tests_cant": "exhaustive characterisation of outcomes", "anchors": ["ghedt/search_routines.py:Bisection1D.search"]}
{"id": "C33", "title": "search() leaves the exchanger configured for the selected field", "statement": "After search() returns, the held exchanger is configured with exactly the selected coordinates at maximum height, whatever its state was before, and calculated temperatures of the selected key is the excess of that field.", "quantifier": "all prior states", "why_tests_cant": "all histories", "anchors": ["ghedt/search_routines.py:Bisection1D.search", "ghedt/search_routines.py:Bisection1D.initialize_ghe"]}
{"id": "C34", "title": "search() does a bounded number of simulations", "statement": "In every outcome search() performs at most max_iter+4 simulations: the three end simulations, one for each probed index and one more; probed indices lie strictly between the ends, none is probed twice, there are at most max_iter of them, and at most k when the domain has at most 2^k+1 fields.", "quantifier": "all domains, excess functions, max_iter", "why_tests_cant": "cost bound for all executions", "anchors": ["ghedt/search_routines.py:Bisection1D.search"]}
{"id": "C35", "title": "single-field shortcut can return an infeasible design", "statement": "When the first field's excess has opposite signs at minimum and maximum height, search() returns key 0 at maximum height without looking further; this is feasible iff the excess at maximum height is negative, and if the excess increases with height the returned field violates the limits.", "quantifier": "all excess functions", "why_tests_cant": "needs a non-monotone simulator", "anchors": ["ghedt/search_routines.py:Bisection1D.search"]}
{"id": "C36", "title": "Bisection2D selects from the right nested domain", "statement": "If Bisection2D returns, the field is one of the nested domain whose largest field the outer search selected (or the shared first field), and it meets the limits at maximum height unless the single-field shortcut was taken. If all nested domains share a first field that is too small at both heights and the last largest field is feasible, the inner search passes its initial checks and a feasible field is returned (or ZeroDivisionError for an excess of exactly 0). The index -1 of the shortcut is harmless for a shared first field. If the shared first field is oversized at both heights, the inner search fails with ValueError although a feasible field exists.", "quantifier": "all nested domains with a shared first field, all excess functions", "why_tests_cant": "composition of two searches over arbitrary functions", "anchors": ["ghedt/search_routines.py:Bisection2D.__init__"]}
{"id": "C37", "title": "BisectionZD returns the least total drilling of the domains it sized", "statement": "search_successive visits consecutive nested domains starting at the outer selection, at most 7, going on exactly while total drilling does not increase and stopping at an increase, a failed search or the end of the list; the domain finally selected has the minimum total drilling among those sized, the earliest one on ties; the returned field is its field of largest non-positive excess (the very field that was sized, unless the single-field shortcut was taken); the held exchanger is that field, sized. If not even the first domain can be sized because its search fails, ValueError is raised. When the simulations do not raise, the outcome is: ZeroDivisionError if the excess of the very first field is 0 at a height, or if it does not change sign and that of the last field is 0; ValueError if these have one sign; a field within the limits (or ZeroDivisionError for some candidate exactly at a limit, or whatever sizing a candidate raises) if the first field of each nested domain is too small at both heights and the last field large enough; in every case one of these four.", "quantifier": "all nested domains, excess and sizing functions", "why_tests_cant": "all executions of an early-stopping loop", "anchors": ["ghedt/search_routines.py:BisectionZD.search_successive"]}
{"id": "C38", "title": "flow convention is consistent", "statement": "With flow='borehole' and flow='system' the per-borehole mass flow used for the g-function equals the one the exchanger derives from the system flow, and specifying V per borehole or n*V per system gives identical flows; any other flow string raises ValueError.", "quantifier": "all flows, densities, nonempty fields", "why_tests_cant": "an identity over all inputs", "anchors": ["ghedt/search_routines.py:Bisection1D.retrieve_flow", "ghedt/ground_heat_exchangers.py:BaseGHE.__init__"]}
{"id": "C39", "title": "excess temperature <=0 iff both limits hold", "statement": "cost(max_EFT,min_EFT)<=0 iff max_EFT<=max_allowable and min_EFT>=min_allowable, and it equals the larger violation.", "quantifier": "all temperatures", "why_tests_cant": "all reals", "anchors": ["ghedt/ground_heat_exchangers.py:BaseGHE.cost"]}
{"id": "C40", "title": "detailed simulation: zero load, linearity, causality", "statement": "Temperatures are the superposition of step responses, or nan at a time before an earlier one. With zero load every entering temperature that is a number equals the undisturbed ground temperature; temperature departures are additive and homogeneous in the load sequence; the temperature at step i depends only on loads and times up to i; equal scaling of loads and number of boreholes leaves temperatures unchanged.", "quantifier": "all load sequences, time vectors, g-functions and properties", "why_tests_cant": "superposition laws over all sequences", "anchors": ["ghedt/ground_heat_exchangers.py:BaseGHE._simulate_detailed"]}
{"id": "C41", "title": "splitting a constant-load interval does not change results", "statement": "Inserting an extra time point inside an interval with the same load leaves the temperatures at all other time points unchanged.", "quantifier": "all sequences and insertion points", "why_tests_cant": "refinement law over all sequences", "anchors": ["ghedt/ground_heat_exchangers.py:BaseGHE._simulate_detailed"]}
{"id": "C42", "title": "hourly simulation only works for whole years", "statement": "With 8760 hourly loads simulate('hourly') raises IndexError unless the number of simulated months is a multiple of 12, in which case it produces one temperature per simulated hour; any other method string raises ValueError.", "quantifier": "all month ranges", "why_tests_cant": "all month counts", "anchors": ["ghedt/ground_heat_exchangers.py:GHE.simulate"]}
{"id": "C43", "title": "simulate() returns the extremes it stored", "statement": "The returned pair is (max,min) of the stored temperatures that are numbers and the excess computed from it bounds every one of these: excess<=0 iff all of them lie within the allowable range.", "quantifier": "all simulations with a nonempty result", "why_tests_cant": "all sequences", "anchors": ["ghedt/ground_heat_exchangers.py:GHE.simulate", "ghedt/ground_heat_exchangers.py:BaseGHE.cost"]}
{"id": "C44", "title": "size() ends inside the height bounds, with the wrong end and warning when loads are tiny", "statement": "After size() the height is within [min_Height,max_Height] and each warning is issued exactly when the height equals that bound. If the excess has the same sign at both bounds the height left behind is max_Height and the 'not deep enough' warning is issued - even when the exchanger is oversized at min_Height (both negative). With a sign change the height left behind is the last one the root finder asked for, not the root it returned. An excess of exactly 0 at a bound raises ZeroDivisionError.", "quantifier": "all objective functions, all root finders that only probe inside the bracket", "why_tests_cant": "arbitrary simulator and root finder", "anchors": ["ghedt/ground_heat_exchangers.py:GHE.size", "ghedt/peak_load_analysis_tool/equivalance.py:solve_root"]}
{"id": "C45", "title": "solve_root() branch table", "statement": "solve_root returns the root finder's result exactly when the objective changes sign between the bounds, the upper bound when both are negative, the lower when both positive, raises ZeroDivisionError when an end value is 0; default bounds are x/100 and 10x.", "quantifier": "all objectives and bounds", "why_tests_cant": "all functions", "anchors": ["ghedt/peak_load_analysis_tool/equivalance.py:solve_root"]}
{"id": "C46", "title": "combine_sts_lts() yields an ordered time base", "statement": "For increasing short- and long-time vectors the combined vector is the short-time values <= the first long-time value followed by all long-time values; it is non-decreasing, and strictly increasing iff no short-time value equals the first long-time value; IndexError is raised exactly when the last short-time value equals the first long-time value.", "quantifier": "all sorted vectors", "why_tests_cant": "all vectors", "anchors": ["ghedt/ground_heat_exchangers.py:BaseGHE.combine_sts_lts"]}
{"id": "C47", "title": "g-function interpolation reproduces stored curves and its single-curve guard never rejects", "statement": "After any history of requests, a request for a stored height returns the stored curve, radius and burial depth without the extrapolation warning, for every interpolation kind that passes through its nodes (stored heights at least 1e-6 apart); with exactly one stored curve every nonzero request is answered by that curve - the documented ValueError is unreachable.", "quantifier": "all databases and requests", "why_tests_cant": "all values", "anchors": ["ghedt/gfunction.py:GFunction.g_function_interpolation"]}
{"id": "C48", "title": "g-function interpolation depends on request history outside the stored range", "statement": "The interpolation table is built once: requests inside the stored height range (tolerance 1e-6) are answered without warning and independently of history; an out-of-range request is answered by extrapolation if it comes first or after a first request that was itself out of range, and raises ValueError if the table was built by an in-range request.", "quantifier": "all request sequences", "why_tests_cant": "all histories", "anchors": ["ghedt/gfunction.py:GFunction.g_function_interpolation"]}
{"id": "C49", "title": "borehole radius correction is a shift that composes", "statement": "Correcting r->r is the identity, correcting r1->r2 then r2->r3 equals r1->r3, lengths are kept, a larger radius gives strictly smaller g-values, each by the same amount.", "quantifier": "all g-functions and positive radii", "why_tests_cant": "laws over all reals", "anchors": ["ghedt/gfunction.py:GFunction.borehole_radius_correction"]}
{"id": "C50", "title": "correct_coordinates() is a uniform scaling", "statement": "correct_coordinates(B) returns every borehole multiplied by B/self.B (the zero special cases change nothing); the first pair's distance self.B becomes B; applying it with B=self.B is the identity.", "quantifier": "all fields and spacings", "why_tests_cant": "all fields", "anchors": ["ghedt/gfunction.py:GFunction.correct_coordinates"]}
{"id": "C51", "title": "database import keeps every curve with its own radius and depth", "statement": "configure_database_file_for_usage keys curves by height in integer-sorted order, keeps for each height the last curve/radius given, and uses the given burial depths if all entries have one, else 2 for every height.", "quantifier": "all databases", "why_tests_cant": "all dictionaries", "anchors": ["ghedt/gfunction.py:GFunction.configure_database_file_for_usage"]}
{"id": "C52", "title": "split_heat_and_cool() loses nothing", "statement": "Rejection and extraction lists have the input length, are nonnegative, are never both nonzero in the same hour, and scale*(extraction-rejection) is the input; unknown units raise ValueError.", "quantifier": "all load lists and both units", "why_tests_cant": "all lists", "anchors": ["ghedt/peak_load_analysis_tool/ground_loads.py:HybridLoad.split_heat_and_cool"]}
{"id": "C53", "title": "calendar helpers agree", "statement": "lastmonthhour(m)+1=firstmonthhour(m+1); the hours of month m are 24*monthdays(m); monthdays is 12-periodic; lastmonthhour(12*y)=8760*y; lastmonthhour is strictly increasing.", "quantifier": "all months m>=1", "why_tests_cant": "unbounded month counts", "anchors": ["ghedt/peak_load_analysis_tool/ground_loads.py:monthdays", "ghedt/peak_load_analysis_tool/ground_loads.py:firstmonthhour", "ghedt/peak_load_analysis_tool/ground_loads.py:lastmonthhour"]}
{"id": "C54", "title": "monthly decomposition conserves energy and orders average<=peak", "statement": "The twelve monthly totals sum to the annual total; average*hours=total; average<=peak; the peak is attained in its month and bounds it; constructing Loads raises AssertionError iff the list length is not the hours of the year.", "quantifier": "all load lists of a year, leap or not", "why_tests_cant": "all 8760/8784-vectors", "anchors": ["ghedt/peak_load_analysis_tool/ground_loads.py:Loads.__init__", "ghedt/peak_load_analysis_tool/ground_loads.py:Loads.split_load_by_month"]}
{"id": "C55", "title": "peak day is the day of the peak except at the first hour of a day", "statement": "monthly_peak_day is the 1-based day containing the first occurrence of the peak, except that a peak in the first hour of a day is attributed to the previous day (day 0 if it is the first hour of the month).", "quantifier": "all load lists", "why_tests_cant": "all positions", "anchors": ["ghedt/peak_load_analysis_tool/ground_loads.py:Loads.split_load_by_month"]}
{"id": "C56", "title": "two-day window always contains the monthly peak", "statement": "process_two_day_loads never fails an assertion or leaves the (cyclically padded) year, every window has 48 hours and contains the monthly peak, in its first 25 hours.", "quantifier": "all load lists", "why_tests_cant": "all positions incl. first/last day of the year", "anchors": ["ghedt/peak_load_analysis_tool/ground_loads.py:Loads.process_two_day_loads"]}
{"id": "C57", "title": "two-day window is the peak day and the day after, not the day before", "statement": "Unless the peak is in the first hour of a day, the window starts at the first hour of the peak's own day, contrary to the documented day-before/day-of window.", "quantifier": "all load lists", "why_tests_cant": "all positions", "anchors": ["ghedt/peak_load_analysis_tool/ground_loads.py:Loads.process_two_day_loads"]}
{"id": "C58", "title": "peak duration is always found and at most 48 h when the scaling peak dominates the window", "statement": "If the two-day window nowhere exceeds the peak used for scaling, loads are nonnegative, g is nondecreasing in time and the one-hour response is nonnegative, then the peak-duration interpolation never fails and returns a value in (0,48].", "quantifier": "all load lists, all nondecreasing g", "why_tests_cant": "an inequality between two convolutions for every load vector", "anchors": ["ghedt/peak_load_analysis_tool/ground_loads.py:Loads.perform_current_month_simulation", "ghedt/peak_load_analysis_tool/ground_loads.py:Loads.find_peak_durations"]}
{"id": "C59", "title": "0.1 kW tolerance can make the peak-duration interpolation fail", "statement": "Suppose a month (not December) first reaches its positive peak on its last day, after the first hour of that day, and the first day of the following month exceeds that peak somewhere, but nowhere by 0.1 kW or more. Then with every response that is flat and positive from hour 1 to 48, constructing Loads raises ValueError.", "quantifier": "all such years of loads, all flat positive responses", "why_tests_cant": "needs a specially shaped load", "anchors": ["ghedt/peak_load_analysis_tool/ground_loads.py:Loads.find_peak_durations"]}
{"id": "C60", "title": "peak_hour_range() has the right width and is centred on mid-day", "statement": "The returned range has length equal to the peak duration; unless clamped it is centred at hour 12 of the peak day of the month; it never starts below 0.", "quantifier": "all months, durations", "why_tests_cant": "all values", "anchors": ["ghedt/peak_load_analysis_tool/ground_loads.py:Loads.peak_hour_range"]}
{"id": "C61", "title": "hybrid load sequence conserves monthly energy", "statement": "For each month whose peaks are not retained, and each month with two positive peaks on different days, the time integral of the hybrid load over the month equals rejection total minus extraction total (also in terms of the hourly loads given); if every simulated month is of that kind the whole sequence conserves energy.", "quantifier": "all monthly data, all start/end months", "why_tests_cant": "an integral identity over all data", "anchors": ["ghedt/peak_load_analysis_tool/ground_loads.py:HybridLoad.process_monthly_loads"]}
{"id": "C62", "title": "hybrid load sequence loses energy when a peak is not shown", "statement": "In a month whose peaks are retained the integral is rejection minus extraction plus, for each peak that is not shown (not positive, or both on the same day), its duration times (background load minus peak load): the peaks are dropped but their energy and duration are still subtracted. With both peaks on the same day this deviation is nonzero in general.", "quantifier": "all monthly data; existence of a nonzero deviation", "why_tests_cant": "special coincidence of days", "anchors": ["ghedt/peak_load_analysis_tool/ground_loads.py:HybridLoad.process_monthly_loads"]}
{"id": "C63", "title": "hybrid load arrays are aligned and end at the last hour", "statement": "load, hour and sfload have equal length; the first two entries are the zero load before the start; the final hour is lastmonthhour(end_month) and every month end appears, in order.", "quantifier": "all monthly data and start<=end months", "why_tests_cant": "all lengths", "anchors": ["ghedt/peak_load_analysis_tool/ground_loads.py:HybridLoad.process_monthly_loads"]}
{"id": "C64", "title": "hybrid hours increase under stated conditions, and can go backwards otherwise", "statement": "If all durations are positive and below 22 hours and all peak days lie in their month, the hour sequence is strictly increasing from the second entry on; a peak that is first reached in the very first hour of a month after the first (attributed to day 0) and shown first makes the hours go backwards.", "quantifier": "all monthly data", "why_tests_cant": "all data", "anchors": ["ghedt/peak_load_analysis_tool/ground_loads.py:HybridLoad.process_monthly_loads", "ghedt/peak_load_analysis_tool/ground_loads.py:Loads.peak_hour_range"]}
{"id": "C65", "title": "peaks are retained exactly in the first and last 12 months", "statement": "A month contributes peak segments only if it is among the first 12 or last 12 simulated months; other months contribute exactly one constant segment.", "quantifier": "all start/end months", "why_tests_cant": "all ranges", "anchors": ["ghedt/peak_load_analysis_tool/ground_loads.py:HybridLoad.process_monthly_loads"]}
{"id": "C66", "title": "step-function loads are the differences of the load sequence", "statement": "sfload[0]=0 and sfload[i]=load[i]-load[i-1]; partial sums of sfload recover load.", "quantifier": "all monthly data", "why_tests_cant": "all lengths", "anchors": ["ghedt/peak_load_analysis_tool/ground_loads.py:HybridLoad.process_monthly_loads"]}
{"id": "C67", "title": "synthetic load writer keeps the year length only if the peak block fits", "statement": "synthetic_load_function keeps the list length iff the month block and the peak block lie inside the list; a peak block starting before hour 0 is inserted near the end and lengthens the list. hourly_load_representation always returns; each list has one value per hour of the year iff its January and December blocks fit; December's peak attributed to day 31 lengthens the year; every other hour of a month is at its average except the peak block at noon of the day after the recorded one; a peak on the last day of a month (before December) is lost.", "quantifier": "all loads", "why_tests_cant": "python slice-assignment semantics for all positions", "anchors": ["ghedt/peak_load_analysis_tool/ground_loads.py:synthetic_load_function", "ghedt/peak_load_analysis_tool/ground_loads.py:HybridLoad.hourly_load_representation"]}
{"id": "C68", "title": "create_synthetic_doubling_load_profile() has one value per hour", "statement": "Both lists have 24*days entries for every year; unknown units raise ValueError; only extraction averages are scaled by the unit.", "quantifier": "all years, both units", "why_tests_cant": "all years", "anchors": ["ghedt/peak_load_analysis_tool/ground_loads.py:create_synthetic_doubling_load_profile"]}
{"id": "C69", "title": "month names and numbers are inverse", "statement": "monthindex(number_to_month(m))=m for 1<=m<=12; outside that range number_to_month returns None; monthindex of an unknown name is None.", "quantifier": "all integers, all names", "why_tests_cant": "all integers", "anchors": ["ghedt/peak_load_analysis_tool/ground_loads.py:number_to_month", "ghedt/peak_load_analysis_tool/ground_loads.py:monthindex"]}
{"id": "C70", "title": "radial grid: all cells filled, but pipe cells overrun the grout", "statement": "For every physical U-tube all 535 cells are filled, whatever the array held before: 3 fluid, 1 convection, 4 pipe, 27 grout, 500 soil cells with ordered positive radii, positive conductivity, capacity and volume, contiguous within each region. But the four pipe cells each have the full wall thickness w, so the pipe region overruns the start of the grout region by 3w, the fluid region stops w/8 short of the convection layer and holds less heat than the fluid in the two legs, and the outermost radius is 10 m minus r_b.", "quantifier": "all geometries with 0<r_in<r_out and the tube inside the borehole", "why_tests_cant": "all geometries", "anchors": ["ghedt/peak_load_analysis_tool/radial_numerical_borehole.py:RadialNumericalBH.fill_radial_cell", "ghedt/peak_load_analysis_tool/radial_numerical_borehole.py:RadialNumericalBH.__init__"]}
{"id": "C71", "title": "implicit radial step is uniquely solvable and never undershoots", "statement": "For positive resistances and capacities the tridiagonal system of one time step has exactly one solution, which is the implicit step of heat conduction along the cells and keeps the far-field temperature. With heat being fed in no cell falls below the minimum of the previous temperatures; with heat being drawn none rises above their maximum; what the inner cells store is what is fed in minus what leaves them outward.", "quantifier": "any number of cells, any positive coefficients", "why_tests_cant": "discrete maximum principle for all coefficients", "anchors": ["ghedt/peak_load_analysis_tool/radial_numerical_borehole.py:RadialNumericalBH.calc_sts_g_functions"]}
{"id": "C72", "title": "short-time g-function is increasing in time", "statement": "The g-function returned is 2*pi*k*(core temperature - 20 - R_b) for the implicit heat conduction scheme on the grid, from a uniform temperature with 1 W/m fed in; it is strictly increasing from sample to sample, above -2*pi*k*R_b and below its steady state; temperatures never fall in time and do not rise outward.", "quantifier": "all physical U-tubes, all final times, every exact tridiagonal solver", "why_tests_cant": "induction over time steps", "anchors": ["ghedt/peak_load_analysis_tool/radial_numerical_borehole.py:RadialNumericalBH.calc_sts_g_functions"]}
{"id": "C73", "title": "short-time g-function covers the 48-hour window", "statement": "The simulation terminates; its samples are at 1e-12+120k seconds, strictly increasing; the last one is less than the final time (unless it is the first) but at most 120 s short of it; with the default final time, max(t_s*exp(-8.6),49h), all hourly queries from 1 to 48 hours are answered; with a shorter final time the hours beyond it raise ValueError; asking for the response at the borehole wall always raises ValueError.", "quantifier": "all physical U-tubes, all final times, every tridiagonal solver that returns one number per equation", "why_tests_cant": "termination and coverage for all inputs", "anchors": ["ghedt/peak_load_analysis_tool/radial_numerical_borehole.py:RadialNumericalBH.calc_sts_g_functions", "ghedt/peak_load_analysis_tool/ground_loads.py:Loads.simulate_hourly"]}
{"id": "C74", "title": "equivalent U-tube preserves areas and fits the borehole", "statement": "The equivalent single U-tube of a multiple U-tube or coaxial exchanger has the same fluid and pipe wall cross-section, inner radius smaller than outer, two legs that do not overlap and lie inside its borehole; that borehole is larger than the original exactly when the legs do not fit side by side, otherwise the same; flow, fluid, soil and the heat capacities are kept and the original is not modified. A single U-tube is its own equivalent, anything else raises ValueError, and nothing but ValueError, and what the root finder raises in a bracket with a sign change, is ever raised.", "quantifier": "all multiple-U-tube and coaxial geometries", "why_tests_cant": "all geometries", "anchors": ["ghedt/peak_load_analysis_tool/equivalance.py:equivalent_single_u_tube", "ghedt/peak_load_analysis_tool/equivalance.py:u_tube_volumes", "ghedt/peak_load_analysis_tool/equivalance.py:concentric_tube_volumes"]}
{"id": "C75", "title": "place_pipes() places 2n pipes on one circle, symmetric about the centre", "statement": "All 2*n_pipes centres are at distance s/2+r_out from the centre, their centroid is the centre, the pipes do not overlap iff r_out <= (s/2+r_out)*sin(pi/(2*n_pipes)), for one U-tube the legs are exactly s+2*r_out apart; n_pipes = 0 raises ZeroDivisionError and a negative number places no pipes.", "quantifier": "all s, r_out, n_pipes>=1", "why_tests_cant": "trigonometric identities for all n", "anchors": ["ghedt/peak_load_analysis_tool/media.py:Pipe.place_pipes"]}
{"id": "C76", "title": "Reynolds number formulas", "statement": "compute_Reynolds equals 2*m/(pi*mu*r_in) (independent of roughness and density); the concentric version equals 2*m/(pi*mu*(r_in+r_out)) and raises ZeroDivisionError for an annulus without width; the pipe report calls the concentric version with the roughness as outer radius, and so prints the pipe Reynolds number times r_in/(r_in+roughness).", "quantifier": "all positive inputs", "why_tests_cant": "identities over the reals", "anchors": ["ghedt/peak_load_analysis_tool/borehole_heat_exchangers.py:compute_Reynolds", "ghedt/peak_load_analysis_tool/borehole_heat_exchangers.py:compute_Reynolds_concentric", "ghedt/peak_load_analysis_tool/borehole_heat_exchangers.py:BasePipe.__repr__"]}
{"id": "C77", "title": "Design input checks and dispatch", "statement": "Design raises AssertionError when a required geometric constraint is missing, whatever the routine; with positive, complete constraints it succeeds for near-square, rectangle and bi-rectangle with the candidates of that routine; any unknown routine raises (AssertionError if the bi-rectangle constraints are incomplete, else ValueError); find_design uses the search matching the routine. If the routine of a design is changed after it was made, the candidates stay: find_design raises ValueError for an unknown routine and AttributeError for one that searches candidates of the other kind (a list, or a list of lists), with nothing simulated, and changing between near-square and rectangle makes no difference.", "quantifier": "all routines and constraint combinations", "why_tests_cant": "all strings", "anchors": ["ghedt/design.py:Design.__init__", "ghedt/media.py:GeometricConstraints.check_inputs"]}
{"id": "C78", "title": "exported g-function pairs are an ordered sample including all long-time values", "statement": "With 27 to 56 g-values oak_ridge_export raises ValueError; with at least 57 the exported pairs are a strictly increasing selection of indices, starting at index 1, ending with the last 27 values, 56 to 85 pairs. Printing a GHE does the same with 77 instead of 57, from index 0, 77 to 126 pairs.", "quantifier": "all g-function lengths", "why_tests_cant": "all lengths", "anchors": ["ghedt/search_routines.py:oak_ridge_export"]}
{"id": "C79", "title": "a design that is returned satisfies the user's geometric and thermal constraints", "statement": "Whatever the simulation does, if Design(...).find_design() returns, the selected field lies on the land (near-square: may exceed the length by one spacing), is a grid with spacing within the given bounds (rectangle, bi-rectangle) or, for bi-zoned, an outline with spacings within the bounds around a regular interior with fewer rows and columns, or a part of the sparsest outline (a line, an L, a U, a U being closed), meets the temperature limits at maximum height (exception: the single borehole accepted by the min/max-height shortcut; none for bi-zoned), and the search object holds exactly that field (at maximum height; sized for bi-zoned).", "quantifier": "all land sizes, spacings and all simulation outcomes", "why_tests_cant": "composition of domain generation and search over all inputs", "anchors": ["ghedt/design.py:Design.find_design", "ghedt/search_routines.py:Bisection1D.search", "ghedt/search_routines.py:Bisection2D.__init__", "ghedt/search_routines.py:BisectionZD.search_successive", "ghedt/domains.py:rectangular", "ghedt/domains.py:bi_rectangle_nested", "ghedt/domains.py:bi_rectangle_zoned_nested"]}
{"id": "C80", "title": "requests slightly below the smallest stored height are rejected", "statement": "On a fresh g-function object a B/H request that stands for a height more than 1e-6 but less than 1e-3 below the smallest stored height raises ValueError, although heights further below are extrapolated.", "quantifier": "all databases with at least two curves, all such requests", "why_tests_cant": "all values in an interval", "anchors": ["ghedt/gfunction.py:GFunction.g_function_interpolation"]}
{"id": "C81", "title": "compute_g_functions() covers the whole height range", "statement": "compute_live_g_function stores for every (distinct) height the curve, radius and depth it was computed with; after compute_g_functions with 0 < min_Height < max_Height every B/H request with H in [min_Height, max_Height] is answered without extrapolation after any request history, and at the minimum, average and maximum height the answer is exactly the curve computed there.", "quantifier": "all bounds, curves, interpolation formulas passing through their nodes, and request histories", "why_tests_cant": "all histories and heights", "anchors": ["ghedt/gfunction.py:compute_live_g_function", "ghedt/ground_heat_exchangers.py:BaseGHE.compute_g_functions"]}
{"id": "C82", "title": "layer resistances of the radial grid", "statement": "In the radial grid the convection layer has exactly the convective resistance R_f/2 it is built from, but the pipe and grout layers do not have theirs: with R=sqrt(2)*r_out and wall thickness w the four pipe cells together have R_p/2*log((R+3w)/(R-w))/log(r_b/(R-w)) and the grout cells (R_b-R_f/2)*log(r_b/R)/log(r_b/(R-w)), which is less than the resistance they are meant to carry.", "quantifier": "all physical single U-tubes", "why_tests_cant": "closed form over the reals for every geometry", "anchors": ["ghedt/peak_load_analysis_tool/radial_numerical_borehole.py:RadialNumericalBH.fill_radial_cell", "ghedt/peak_load_analysis_tool/radial_numerical_borehole.py:RadialNumericalBH.calc_sts_g_functions"]}
{"id": "C83", "title": "pipe mass flow rate by configuration", "statement": "A U-tube in series (or a single one) carries the full borehole flow in its pipes, in parallel half of it whatever the number of U-tubes, any other configuration string raises ValueError; so the parallel pipe flows add up to the borehole flow only for two U-tubes.", "quantifier": "all flows, configurations and numbers of U-tubes", "why_tests_cant": "all strings and numbers", "anchors": ["ghedt/peak_load_analysis_tool/borehole_heat_exchangers.py:BasePipe.compute_mass_flow_rate_pipe", "ghedt/peak_load_analysis_tool/borehole_heat_exchangers.py:MultipleUTube.__init__"]}
{"id": "C84", "title": "changing flow rate or fluid of an exchanger", "statement": "Updating a U-tube with a new fluid gives exactly the exchanger that would be constructed with that fluid. Updating a single or multiple U-tube with a new flow rate keeps the convection coefficient, pipe flow and resistances of the old flow; a coaxial exchanger follows the new flow. compute_convection_coefficient(m') of a single U-tube, after any updates, is that of an exchanger built with flow m' and the fluid last given. compute_effective_borehole_resistance(m', fluid') stores its arguments: later requests without arguments give the resistance for the flow and the fluid last given, with the convection coefficients and resistances the exchanger was built with, for U-tubes and coaxial exchangers alike.", "quantifier": "all exchangers, flows and fluids, all convection correlations", "why_tests_cant": "all correlations and values", "anchors": ["ghedt/peak_load_analysis_tool/borehole_heat_exchangers.py:SingleUTube.update_thermal_resistance", "ghedt/peak_load_analysis_tool/borehole_heat_exchangers.py:MultipleUTube.update_thermal_resistance", "ghedt/peak_load_analysis_tool/borehole_heat_exchangers.py:CoaxialPipe.update_thermal_resistance", "ghedt/peak_load_analysis_tool/borehole_heat_exchangers.py:BasePipe.compute_resistances", "ghedt/peak_load_analysis_tool/borehole_heat_exchangers.py:SingleUTube.compute_convection_coefficient"]}
{"id": "C85", "title": "resistances the equivalent tube is fitted to", "statement": "For n U-tubes the target pipe resistance is R_p/(2n), but the target convective resistance is R_f/(2n) divided by the inner diameter in metres (pi times the diameter squared is used for the wetted perimeter), so the target is the parallel fluid-to-pipe resistance only if the inner diameter is exactly one metre; for a coaxial exchanger the target equals its fluid-to-pipe resistance iff the two annulus coefficients agree.", "quantifier": "all exchangers and convection correlations", "why_tests_cant": "identities over the reals", "anchors": ["ghedt/peak_load_analysis_tool/equivalance.py:u_tube_volumes", "ghedt/peak_load_analysis_tool/equivalance.py:concentric_tube_volumes"]}
{"id": "C86", "title": "pipe conductivity of the equivalent tube", "statement": "The search for the pipe conductivity starts at n times the original conductivity and stays within a hundredth and ten times of it; with a sign change of the excess the tube is left with the last conductivity the root finder asked for; without one it is left with ten times the starting value even when the other end is nearer; an excess of exactly zero at an end raises ValueError.", "quantifier": "all exchangers, correlations and root finders", "why_tests_cant": "all histories of an arbitrary root finder", "anchors": ["ghedt/peak_load_analysis_tool/equivalance.py:equivalent_single_u_tube", "ghedt/peak_load_analysis_tool/equivalance.py:solve_root"]}
{"id": "C87", "title": "grout conductivity of the equivalent tube", "statement": "The grout conductivity of the equivalent tube is what the root finder returned when the effective borehole resistance of the original lies between those of the new tube at 0.01 and 7 W/mK, hence within [0.01,7] and reproducing the original resistance to the finder's tolerance; otherwise it is the end value, which for a resistance falling with conductivity is the best of the range.", "quantifier": "all exchangers, resistance models and root finders", "why_tests_cant": "all histories of an arbitrary root finder", "anchors": ["ghedt/peak_load_analysis_tool/equivalance.py:match_effective_borehole_resistance", "ghedt/peak_load_analysis_tool/equivalance.py:multiple_to_single", "ghedt/peak_load_analysis_tool/equivalance.py:coaxial_to_single"]}
{"id": "C88", "title": "the short-time model accepts the equivalent tube", "statement": "For a single, multiple or coaxial exchanger with increasing positive radii, thin walls, positive material properties, convection and depth, in a borehole (enlarged if necessary) narrower than 5 m, the equivalent tube satisfies everything the short-time response model needs, whatever the root finder does inside its bracket.", "quantifier": "all such exchangers, convection correlations, resistance models at least the pipe share, and root finders", "why_tests_cant": "all geometries and finder histories", "anchors": ["ghedt/peak_load_analysis_tool/equivalance.py:compute_equivalent", "ghedt/peak_load_analysis_tool/radial_numerical_borehole.py:RadialNumericalBH.__init__", "ghedt/ground_heat_exchangers.py:BaseGHE.__init__"]}
{"id": "C89", "title": "a simulation depends on the height only, not on what was done before", "statement": "Whatever was simulated, sized, printed and exported before on a GHE, at heights within the range of its g-function database and whether or not exceptions were raised, setting a height and calling simulate() gives what a newly made GHE gives at that height: the same result or exception, fluid and borehole wall temperatures. Simulation and sizing of the whole object are those of a fixed deterministic function of the height, so C39-C46 hold of it.", "quantifier": "all exchangers with up-to-date resistances, valid databases, histories of height changes, simulate(), size(), print and oak_ridge_export calls", "why_tests_cant": "all histories", "anchors": ["ghedt/ground_heat_exchangers.py:GHE.simulate", "ghedt/ground_heat_exchangers.py:GHE.size", "ghedt/ground_heat_exchangers.py:BaseGHE.grab_g_function", "ghedt/gfunction.py:GFunction.g_function_interpolation"]}
{"id": "C90", "title": "when a simulation of the whole object succeeds", "statement": "At a height where the exchanger is physically sound, simulate('hybrid') returns, with one temperature per load after the first two, if the load times from 0 on are at least 1e-12 s apart and end no later than t_s*exp(b), b being the last value of log_time; all of them numbers. More generally it returns if each pair of these times that is in order is at least 1e-12 s and at most t_s*exp(b) apart, the first not being negative, and raises ValueError if some pair in order is not. simulate('hourly') of n years of 8760 loads returns 8760*n temperatures when they end no later than that.", "quantifier": "all sound exchangers, databases, load sequences, and all histories of use", "why_tests_cant": "all sequences and histories", "anchors": ["ghedt/ground_heat_exchangers.py:GHE.simulate", "ghedt/ground_heat_exchangers.py:BaseGHE._simulate_detailed", "ghedt/ground_heat_exchangers.py:BaseGHE.combine_sts_lts", "ghedt/peak_load_analysis_tool/radial_numerical_borehole.py:RadialNumericalBH.calc_sts_g_functions"]}
{"id": "C91", "title": "where sizing fails and where history matters", "statement": "If the simulated period is too long for the g-function at the minimum height, size() raises ValueError even if it is not too long at greater heights. At a height beyond the deepest one of the database a newly made GHE simulates by extrapolation, but one already simulated within the range raises ValueError.", "quantifier": "all such exchangers, periods, databases and heights", "why_tests_cant": "all histories and values", "anchors": ["ghedt/ground_heat_exchangers.py:GHE.size", "ghedt/ground_heat_exchangers.py:GHE.simulate", "ghedt/gfunction.py:GFunction.g_function_interpolation"]}
{"id": "C92", "title": "what a simulation of the whole object computes", "statement": "After any use within the range of the g-function database, whenever simulate() returns at height H, the stored fluid temperature of step i is nan if an earlier time is later, and otherwise T_ground + sum over j<i of (Q_{j+1}-Q_j)/(N*H)/(2*pi*k)*G(t_i-t_j) + Q_i/(N*H)*R_b - Q_i/N/(2*m*cp) and the stored borehole wall rise is that sum, with N the number of locations, k and T_ground of the soil, m and cp of the exchanger, R_b the effective resistance at H, Q the hybrid loads (first two entries left out, in W) or minus the hourly loads repeated each year; G(t) lies on the polyline over log(t/t_s) through the short-time samples of the equivalent tube at H up to the first long time followed by the g-function for H lowered by log(r_b/r_b*).", "quantifier": "all exchangers, databases, loads, heights in range and histories of use", "why_tests_cant": "formula over the reals for every sequence and history", "anchors": ["ghedt/ground_heat_exchangers.py:GHE.simulate", "ghedt/ground_heat_exchangers.py:BaseGHE._simulate_detailed", "ghedt/ground_heat_exchangers.py:BaseGHE.grab_g_function", "ghedt/ground_heat_exchangers.py:BaseGHE.combine_sts_lts", "ghedt/gfunction.py:GFunction.borehole_radius_correction"]}
{"id": "C93", "title": "a whole design run returns a field that meets the limits", "statement": "When find_design returns, with exchangers, short- and long-time responses and loads computed by the tool itself, the field is one of the candidates, and the exchanger left is exactly the one a user would construct by hand for that field at maximum height (for the bi-zoned routine: that one after computing g-functions and sizing); nothing of the exchangers tried on the way is left in it. Simulated, all its temperatures that are numbers are within both limits, or it is the first candidate and is within them at minimum height.", "quantifier": "all inputs, candidate lists, routines and behaviours of the external code", "why_tests_cant": "every search history leaves state in one shared borehole object; tests look at one history", "anchors": ["ghedt/design.py:Design.find_design", "ghedt/search_routines.py:Bisection1D.search", "ghedt/search_routines.py:Bisection1D.initialize_ghe", "ghedt/search_routines.py:Bisection2D.__init__", "ghedt/search_routines.py:BisectionZD.search_successive", "ghedt/ground_heat_exchangers.py:GHE.__init__"]}
{"id": "C94", "title": "a design run can be repeated, whatever height the borehole had", "statement": "find_design overwrites the height of the borehole the user passed. Its outcome does not depend on the height that borehole had before, as long as the first candidate can be constructed at it, and running find_design again with the borehole it left gives the same field, index, records and exchanger.", "quantifier": "all inputs, candidate lists, routines and initial heights", "why_tests_cant": "all heights and search histories", "anchors": ["ghedt/design.py:Design.find_design", "ghedt/search_routines.py:Bisection1D.__init__", "ghedt/search_routines.py:Bisection1D.initialize_ghe"]}
{"id": "C95", "title": "which inputs make an exchanger", "statement": "Constructing a GHE from a field with at least one borehole, a year of 8760 loads, physically sound media and geometry, and months 1 <= first <= last, raises nothing if neither the rejection nor the extraction has the rounding coincidence of C59 across a month boundary: it has the given field, media, height, limits and spacing, the flow per borehole (total flow divided by the number of boreholes for a system flow), and hybrid loads ending with the last hour of the last month. An empty field raises IndexError (ZeroDivisionError with a system flow); an unknown kind of flow raises ValueError; any number of loads other than 8760 raises AssertionError. If the first candidate of a design cannot be made, find_design raises that error, whatever the routine.", "quantifier": "all such inputs, correlations, root finders with exact solution of the linear systems, g-function calculations of 27 values", "why_tests_cant": "all geometries, loads and behaviours of external code", "anchors": ["ghedt/ground_heat_exchangers.py:GHE.__init__", "ghedt/peak_load_analysis_tool/ground_loads.py:HybridLoad.__init__", "ghedt/peak_load_analysis_tool/equivalance.py:compute_equivalent", "ghedt/gfunction.py:calculate_g_function", "ghedt/search_routines.py:Bisection1D.retrieve_flow"]}
{"id": "C96", "title": "simulations during a search, and when find_design succeeds", "statement": "For such inputs, a period within reach of the g-function and, for the hybrid method, distinct load times, the simulation of a newly made exchanger returns, and its temperatures follow the superposition formula with the response on the polyline through the short-time samples and the g-function of that field. find_design of the near-square and rectangle routines then raises nothing but the exceptions of the search itself, and its outcome is determined by the excess a and b of the first field at minimum and maximum height and c of the last at maximum height: ZeroDivisionError if a or b is 0; the first field if a*b<0; otherwise ZeroDivisionError if c is 0, ValueError if b*c>0, and if b*c<0 a field whose temperatures are within the limits at maximum height, or ZeroDivisionError if a probed field is at a limit exactly.", "quantifier": "all such inputs and candidate lists", "why_tests_cant": "all lists, loads and search histories", "anchors": ["ghedt/design.py:Design.find_design", "ghedt/search_routines.py:Bisection1D.search", "ghedt/ground_heat_exchangers.py:GHE.simulate", "ghedt/ground_heat_exchangers.py:BaseGHE._simulate_detailed"]}
{"id": "C97", "title": "sizing the exchanger a design run left", "statement": "compute_g_functions on the exchanger find_design left raises nothing and changes the g-functions only; the hybrid loads stay those of the maximum height. Afterwards, whatever was simulated and sized in between, simulating at maximum height gives exactly the temperatures the search saw, as does the hourly method at minimum and average height. size() raises ZeroDivisionError if the temperatures reach a limit exactly at minimum or maximum height; leaves the maximum height with the 'not deep enough' warning if they are outside the limits at both, or inside at both; otherwise leaves the last height the root finder asked for, within the bounds. After find_design the temperatures are within the limits at maximum height, except after the single-field shortcut, when by the hourly method they are so at minimum height. The bi-zoned routine leaves a height within the bounds.", "quantifier": "all inputs whose exchangers and g-functions can be made, candidate lists, routines and histories of use", "why_tests_cant": "all histories and search paths", "anchors": ["ghedt/design.py:Design.find_design", "ghedt/ground_heat_exchangers.py:BaseGHE.compute_g_functions", "ghedt/ground_heat_exchangers.py:GHE.size", "ghedt/ground_heat_exchangers.py:GHE.simulate", "ghedt/search_routines.py:BisectionZD.search_successive"]}
{"id": "C98", "title": "the exported dictionary describes the exchanger just evaluated", "statement": "oak_ridge_export of a GHE that was just simulated or sized, whatever was done before, gives the number of coordinates passed, the height the GHE has, the geometry and resistances of the equivalent single U-tube of that height, and pairs (log time, g) with strictly increasing times, a selection of the short-time values up to the first long time and of all 27 long-time values of the field, 56 to 85 in all; it raises ValueError exactly when the first long time is less than 29 time steps of 120 s. After setting another height without simulating, the new height and its long-time values are exported with the short-time values, and for other than single U-tubes the tube, of the old height. Of the GHE that find_design leaves, it exports maximum height and the curve the search computed.", "quantifier": "all exchangers, databases, histories of use and designs, apart from the tie of C46", "why_tests_cant": "all histories and values", "anchors": ["ghedt/search_routines.py:oak_ridge_export", "ghedt/ground_heat_exchangers.py:GHE.simulate", "ghedt/ground_heat_exchangers.py:GHE.size", "ghedt/ground_heat_exchangers.py:BaseGHE.grab_g_function", "ghedt/design.py:Design.find_design"]}
{"id": "C99", "title": "after sizing, the temperatures held are those of the height left", "statement": "When size() returns, the fluid and wall temperatures the GHE holds are exactly those simulate() gives at the height size() left, whatever was done before and whatever heights the root finder asked for.", "quantifier": "all exchangers, databases, methods, root finders and histories of use", "why_tests_cant": "all histories and root finders", "anchors": ["ghedt/ground_heat_exchangers.py:GHE.size", "ghedt/ground_heat_exchangers.py:GHE.simulate"]}
{"id": "C100", "title": "the text printed for an exchanger", "statement": "print of a GHE that was just simulated or sized gives the documented page: number of boreholes, height, spacing, exchanger, equivalent tube, parameters, the largest and smallest temperature at the height it has and the excess over the limits, the peak table, every borehole location in order, and pairs (log time, g) as in C98 but 77 to 126 of them. It raises ValueError exactly when the first long time is less than 49 time steps of 120 s. The GHE that find_design leaves is printed without temperatures. Printing changes nothing a later simulation depends on (C89).", "quantifier": "all exchangers, databases, histories of use, designs and ways of formatting numbers and tables", "why_tests_cant": "all histories and values", "anchors": ["ghedt/ground_heat_exchangers.py:BaseGHE.__repr__", "ghedt/ground_heat_exchangers.py:GHE.__repr__", "ghedt/ground_heat_exchangers.py:BaseGHE.header", "ghedt/ground_heat_exchangers.py:BaseGHE.justify", "ghedt/ground_heat_exchangers.py:BaseGHE.grab_g_function"]}
{"id": "C101", "title": "what the g-function library is asked to compute", "statement": "For a field, calculate_g_function passes to pygfunction the boreholes at the given places in order, all of the given height, burial depth, radius, tilt and orientation, one exchanger of the given class each, with the flow per borehole in each and the flow of all of them in the network, the diffusivity k/rhoCp and the times given; compute_live_g_function asks for the times exp(l) H^2/(9 alpha) of each height, eight unequal segments, uniform inlet temperature and the equivalent solver unless told otherwise. The kind of segments is read without regard to case, the boundary condition with regard to it, and anything unknown raises ValueError. A multiple U-tube gets half the flow in each pipe.", "quantifier": "all fields, media, exchanger classes, heights, settings and behaviours of the library", "why_tests_cant": "all fields and settings; the library is the only reader of the question", "anchors": ["ghedt/gfunction.py:calculate_g_function", "ghedt/gfunction.py:compute_live_g_function", "ghedt/peak_load_analysis_tool/borehole_heat_exchangers.py:SingleUTube.__init__", "ghedt/peak_load_analysis_tool/borehole_heat_exchangers.py:MultipleUTube.__init__", "ghedt/peak_load_analysis_tool/borehole_heat_exchangers.py:CoaxialPipe.__init__"]}
{"id": "C102", "title": "the library's answer is used at the times it was asked for", "statement": "In a hourly or hybrid simulation of a newly made exchanger, the response for an elapsed time between two of the times pygfunction was asked for is interpolated, linearly in the logarithm of the time, between the values it answered for these. The question for a field without repeated boreholes is sensible (distinct places, positive sizes, positive increasing times, one exchanger per borehole), so designs need of the library only that it answers such questions with one value per time.", "quantifier": "all usable inputs, fields, loads and behaviours of the library", "why_tests_cant": "all fields, times and answers", "anchors": ["ghedt/gfunction.py:compute_live_g_function", "ghedt/gfunction.py:GFunction.g_function_interpolation", "ghedt/ground_heat_exchangers.py:BaseGHE.grab_g_function", "ghedt/ground_heat_exchangers.py:BaseGHE._simulate_detailed"]}
{"id": "C103", "title": "the short-time response slows down", "statement": "From sample to sample (every 120 s) the short-time g-function grows by less and less: each increase is at most the one before, and the first increase at most the rise of the first sample itself. So over whole hours s <= t of the first two days the temperature rise of the fluid per W/m, g/(2 pi k) + R_b, is positive and grows at most in proportion to time: s*rise(t) <= (t+1/30)*rise(s).", "quantifier": "all physical U-tubes, all final times, every exact tridiagonal solver", "why_tests_cant": "all grids, final times and solver behaviours", "anchors": ["ghedt/peak_load_analysis_tool/radial_numerical_borehole.py:RadialNumericalBH.calc_sts_g_functions", "ghedt/peak_load_analysis_tool/ground_loads.py:Loads.simulate_hourly"]}
{"id": "C104", "title": "hybrid peaks have a duration and load times keep their distance", "statement": "If every monthly peak of rejection and extraction is attributed neither to the first nor to the last day of its month and stands out (average^2 times the number of hours of that day up to the peak is at most 4*peak*(peak-average), or no load of that day before the peak is positive and below average), its duration in the hybrid load is at least 1e-6 h and at most 48 h. If besides the two peaks of a month are attributed to the same day or to days three or more apart, all times of the hybrid load of a newly made exchanger are at least 1e-6 h apart, so that the hybrid simulation of C96 cannot fail. The same holds for peaks on the first or last day of a month if they are not in its first hour, are not exceeded in the two days looked at, the loads of that day before the peak fall short of the average by little, and the loads of the two days exceed the average, each weighted with the load, by at most 20/3 of peak*(peak-average): such a peak lasts at most 21 h. In general the times are delta apart whenever every peak lasts delta or more, starts and ends inside its month, and peaks on different days do not overlap; and the times never go back exactly if the peaks shown fit their months in this sense. Violated without such conditions: a peak of the first year on the last day of its month that lasts more than 22 h puts the times out of order (and temperatures become not-a-number without an error, C129).", "quantifier": "all usable inputs, years of loads and heights", "why_tests_cant": "all loads and responses", "anchors": ["ghedt/peak_load_analysis_tool/ground_loads.py:Loads.find_peak_durations", "ghedt/peak_load_analysis_tool/ground_loads.py:Loads.perform_current_month_simulation", "ghedt/peak_load_analysis_tool/ground_loads.py:HybridLoad.process_monthly_loads", "ghedt/ground_heat_exchangers.py:GHE.simulate"]}
{"id": "C105", "title": "sensible arguments give an exchanger that can be simulated", "statement": "Give positive flow, properties and height, a borehole radius below 5 m, pipes with radii in order and walls not too thick (a single U-tube must fit the borehole; the others must not exceed 1 m), a year of 8760 hourly loads, an existing range of months, coordinates that are not empty and not repeated, and heights for which the short-time simulation has steps enough and does not end on a sample. If the root searches of the conversion have no root at their ends, the library's correlations are positive and it answers, brentq stays in its bracket and dgtsv is accurate enough for the equivalent tube (C131), then the GHE is made without an exception, its equivalent tube is a physical one, its characteristic time is H^2/(9 alpha), and simulation cannot fail within the years the long-time curve covers.", "quantifier": "all problems, coordinates, heights, exchanger kinds and behaviours of the libraries", "why_tests_cant": "all arguments and library behaviours", "anchors": ["ghedt/ground_heat_exchangers.py:GHE.__init__", "ghedt/peak_load_analysis_tool/equivalance.py:compute_equivalent", "ghedt/peak_load_analysis_tool/borehole_heat_exchangers.py:SingleUTube.__init__", "ghedt/gfunction.py:compute_live_g_function", "ghedt/ground_heat_exchangers.py:GHE.simulate"]}
{"id": "C106", "title": "a design, from the land to the exchanger left", "statement": "Design(...).find_design() for a positive, complete set of constraints: if it returns, whatever the external libraries do, it has selected a field lying in the land (near-square: up to one spacing longer), which is a grid with the spacing(s) asked for (within the given bounds; bi-zoned: an outline with spacings within the bounds around a regular interior, or a part of the sparsest outline), and the exchanger left is the one made by hand for that field at maximum height; simulated, it is within the temperature limits, or the field is a single borehole within the limits at minimum height. For bi-zoned (land wider than high) it is always within the limits, and the exchanger left is the one made by hand after compute_g_functions and sizing by the hybrid method.", "quantifier": "all constraints, problems, methods and behaviours of external code", "why_tests_cant": "all lands, loads and library behaviours", "anchors": ["ghedt/design.py:Design.find_design"]}
{"id": "C107", "title": "which outcome a design has", "statement": "If the arguments and the libraries are sensible in the sense of C105 for the candidate fields, find_design of the near-square, rectangle and bi-rectangle (for bi-zoned see below) routines is decided by the excess a and b of the single borehole at minimum and maximum height and c of the largest field at maximum height: ZeroDivisionError if a or b is 0; the single borehole if their signs differ; else ZeroDivisionError if c is 0, ValueError if c has their sign, and if a and b are positive and c negative a field within the limits, unless some candidate is at a limit exactly. If no whole number of boreholes fits the bounds on the spacing (longer side for rectangle, either side for bi-rectangle and bi-zoned) IndexError is raised. For bi-zoned, ValueError is raised if a side is not longer than its maximum spacing; otherwise the outcome is as in C37, with a field within the limits if the first field of each nested list is too small and the largest large enough, unless a candidate is at a limit exactly or sizing one raises.", "quantifier": "all positive constraints and all problems sensible for their candidates", "why_tests_cant": "all lands, loads and library behaviours", "anchors": ["ghedt/design.py:Design.find_design", "ghedt/search_routines.py:Bisection1D.search", "ghedt/search_routines.py:Bisection2D.__init__"]}
{"id": "C108", "title": "which interpolation a request for a g-function uses", "statement": "g_function_interpolation(B/H, kind) with two or more stored curves uses the kind named - reduced to what the curves suffice for (cubic needs four, quadratic three) - only if it is the first request not refused: the kind of that one decides for the rest of the object's life, and later kinds are ignored without notice. After a first request with 'lagrange' heights beyond the stored range are always answered; after any other they are refused with ValueError unless the first request was itself beyond the range. A stored height gives the stored curve whatever the kinds. An unknown kind raises KeyError, and with a single stored curve any named kind raises ValueError, without trace.", "quantifier": "all databases, histories of requests with any kinds (also refused ones), ratios, kinds and interpolation formulas", "why_tests_cant": "all histories and formulas", "anchors": ["ghedt/gfunction.py:GFunction.g_function_interpolation"]}
{"id": "C109", "title": "the table of the peak analysis", "statement": "create_dataframe_of_peak_analysis() of every HybridLoad that can be made returns a table with the twelve months in order as rows and, for Total, Peak, Average, Peak Day and Peak Duration, one column for rejection and one for extraction. The entry in the row of a month under a field and a load kind is that of the hourly loads of that month and kind: their sum, their largest value, their mean, the day on which the largest is first reached (the day before if in the first hour of a day) and the duration found for it; no entry is from another month, field or kind.", "quantifier": "all loads, years, periods and responses for which the hybrid load is made", "why_tests_cant": "all years of loads; the headings are put to the values by position in nested loops over two dictionaries", "anchors": ["ghedt/peak_load_analysis_tool/ground_loads.py:HybridLoad.create_dataframe_of_peak_analysis", "ghedt/peak_load_analysis_tool/ground_loads.py:number_to_month"]}
{"id": "C110", "title": "what is printed of an exchanger and its parts", "statement": "str of a SingleUTube, MultipleUTube or CoaxialPipe, just made or after any sequence of update_thermal_resistance(m, fluid), is a fixed page: flow through the borehole as given last, flow through a pipe as at construction (half for parallel), borehole, soil, grout, pipe (half the number of positions as number of pipes) and fluid as given last, each value under its own label and unit; for U-tubes the Reynolds number 2m/(pi mu (r_in+eps)) and the convection coefficient of the flow at construction, for coaxial pipes the convection coefficients of the flow given last but the Reynolds numbers of the flow at construction; pipe, fluid and effective resistances by their formulas. A U-tube as rough as its radius raises ZeroDivisionError. In the text of a GHE (C100) these pages are those of the exchanger at the height it has and of the equivalent tube for that height, whose effective resistance is the one its short-time response was computed with; the simulation parameters and the peak table of C109 are those it was made with.", "quantifier": "all exchangers, media, fluids, histories of updates, and all number formats", "why_tests_cant": "all inputs and histories of updates", "anchors": ["ghedt/peak_load_analysis_tool/borehole_heat_exchangers.py:BasePipe.__repr__", "ghedt/peak_load_analysis_tool/borehole_heat_exchangers.py:SingleUTube.__repr__", "ghedt/peak_load_analysis_tool/borehole_heat_exchangers.py:MultipleUTube.__repr__", "ghedt/peak_load_analysis_tool/borehole_heat_exchangers.py:CoaxialBase.__repr__", "ghedt/peak_load_analysis_tool/media.py:ThermalProperty.__repr__", "ghedt/peak_load_analysis_tool/media.py:Pipe.__repr__", "ghedt/peak_load_analysis_tool/media.py:Soil.__repr__", "ghedt/peak_load_analysis_tool/media.py:SimulationParameters.__repr__", "ghedt/peak_load_analysis_tool/ground_loads.py:HybridLoad.__repr__", "ghedt/ground_heat_exchangers.py:GHE.__repr__"]}
{"id": "C111", "title": "files written and read", "statement": "js_dump(name, v) and create_input_file(v, name) into an existing directory write name.json and name.obj, and after any history of calls of the file functions, returning or raising, none of which writes that file, js_load and read_input_file of the name with its extension return v again (if the decoder undoes the encoder on v). The name without extension raises OSError. Files not written keep their contents and directories stay. Without the directory OSError is raised and nothing changes; if the encoder raises, the old contents are lost. create_if_not(path) makes the directories of the path and no others and leaves files alone; it does nothing if anything, even a file, is at the path, and raises OSError if a file is on the way; after it, writing there works. oak_ridge_export writes nothing if it raises before, and else the file read back has the length, number of boreholes, points and tube of C98, each under its key.", "quantifier": "all disks, names, values, encoders and decoders, and histories of calls", "why_tests_cant": "all histories, also with failing calls", "anchors": ["ghedt/utilities.py:js_dump", "ghedt/utilities.py:js_load", "ghedt/utilities.py:create_if_not", "ghedt/utilities.py:create_input_file", "ghedt/utilities.py:read_input_file", "ghedt/search_routines.py:oak_ridge_export"]}
{"id": "C112", "title": "pictures of fields, candidates and curves", "statement": "visualize_coordinates, GFunction.visualize_borefield and visualize_area_and_constraints draw exactly the given boreholes and the closed outlines of land and zone; an empty field (for the first two) raises ValueError, an empty zone IndexError. visualize_domain(domain, folder) makes the folder and writes the picture of field i into the file with its number (three digits or more), each field its own file, up to the first empty field, where it raises ValueError; no other file is changed, so older pictures with higher numbers stay. visualize_g_functions draws every stored curve once, the last one first; heights with the same whole metres get the same name in the legend; a curve with another number of values than there are times raises ValueError, one for the height 0 ZeroDivisionError, whichever of the two is stored later.", "quantifier": "all fields, outlines, domains of any length, disks and stored curves", "why_tests_cant": "all domains and all disks", "anchors": ["ghedt/coordinates.py:visualize_coordinates", "ghedt/domains.py:visualize_domain", "ghedt/gfunction.py:GFunction.visualize_borefield", "ghedt/gfunction.py:GFunction.visualize_area_and_constraints", "ghedt/gfunction.py:GFunction.visualize_g_functions"]}
{"id": "C113", "title": "pictures of the loads", "statement": "For every year of loads the fluid temperature histories are kept for the simulated months only, in order; a month is not simulated iff (nonnegative loads) it has no load and there is no load of 0.1 or more on the day before it. visualize_fluid_simulation_results(m) shows the histories of the m-th simulated month, marked with the duration of month m: they are those of month m iff every month up to m was simulated, else those of a later month, or IndexError; the rejection loads are shown as Extraction and the extraction loads as Rejection. visualize_hourly_heat_extraction always raises AttributeError.", "quantifier": "all years of loads, all responses, all months", "why_tests_cant": "all years", "anchors": ["ghedt/peak_load_analysis_tool/ground_loads.py:HybridLoad.visualize_fluid_simulation_results", "ghedt/peak_load_analysis_tool/ground_loads.py:HybridLoad.visualize_hourly_heat_extraction", "ghedt/peak_load_analysis_tool/ground_loads.py:Loads.find_peak_durations"]}
{"id": "C114", "title": "minor ticks of a symmetric logarithmic axis", "statement": "MinorSymLogLocator(linthresh, n) for a positive linthresh, n >= 2 and at least two increasing major ticks gives the inner points that divide each gap between neighbouring major ticks into n equal parts (n-1 if its middle is outside the linear part), and the same for one gap more at each end. For the decades c, 10c, 100c, ... with c >= linthresh and n = 10 the minor ticks are exactly 2 to 9 times each decade, and the tenths of c below c only if c = linthresh: else the gap below c gets none (its ticks are put, twice, into the gap above). One major tick gives none, no major tick IndexError.", "quantifier": "all thresholds, all lists of major ticks, any number of decades", "why_tests_cant": "all numbers of ticks and positions", "anchors": ["ghedt/utilities.py:MinorSymLogLocator"]}
{"id": "C115", "title": "from sensible arguments to a height", "statement": "For sensible arguments (C105), bounds for the height that differ by more than the interpolation's tolerance, and heights (the bounds and those the root finder asks for) that are fine, compute_g_functions on the field found by find_design raises nothing, and size(method) raises only ZeroDivisionError, when the temperature simulated at one of the two bounds is at its limit exactly, or what the root finder raises. If both bounds are on the same side of the limits the height is left at the maximum with the warning; otherwise the height left is the last one the root finder asked for, between the bounds, and it was shown the temperatures simulated at the heights it asked for. A bi-zoned design, which sizes inside the search, returns a candidate within the limits or raises ZeroDivisionError (only if a temperature of a candidate is at its limit exactly, in the search or when it is sized), ValueError or what the root finder raises; no ValueError if the first fields are out of limits and the last field is within them.", "quantifier": "all sensible problems, candidates, methods, root finders, and all uses of the exchanger between design and sizing", "why_tests_cant": "all problems, libraries and root finders", "anchors": ["ghedt/design.py:Design.find_design", "ghedt/ground_heat_exchangers.py:BaseGHE.compute_g_functions", "ghedt/ground_heat_exchangers.py:GHE.size", "ghedt/search_routines.py:BisectionZD.search", "ghedt/peak_load_analysis_tool/equivalance.py:solve_root"]}
{"id": "C116", "title": "requests on a g-function object whose data do not match", "statement": "GFunction(...) accepts data that do not match, and what g_function_interpolation does then (two or more curves): if one curve has fewer values than log_time, the first request with a known kind raises IndexError and every later one KeyError, whatever was asked for in between, and none is ever answered; values of curves beyond the number of times are never used; if some height with a radius has no burial depth, no burial depth is returned for any height, and otherwise every request is answered or refused as if all burial depths were there.", "quantifier": "all such data, interpolation formulas, kinds and histories of requests", "why_tests_cant": "all histories", "anchors": ["ghedt/gfunction.py:GFunction.g_function_interpolation"]}
{"id": "C117", "title": "candidate fields in floating-point arithmetic", "statement": "With every addition, multiplication and division rounded (any rounding that is monotone, exact on whole numbers up to 2^53 and accurate to 53 bits, hence IEEE double precision), for positive inputs whose ratios are at most 10^15: rectangular, bi_rectangle_nested, square_and_near_square and number_of_boreholes return, and so does Design for these routines. Borehole counts strictly increase, starting with a single borehole at the origin (rectangular, nested); no two boreholes of a field coincide; every field is a grid, its boreholes at most one part in 10^15 off; boreholes lie in the land and spacings between the bounds up to one part in 10^15, except that a nested domain for n rows may be laid out with n+1 rows; no count of boreholes or rows that is admissible in exact arithmetic is left out of the range considered. Without rounding the model is the one of the other claims.", "quantifier": "all roundings, land sizes and spacing bounds", "why_tests_cant": "all floating-point inputs", "anchors": ["ghedt/domains.py:rectangular", "ghedt/domains.py:bi_rectangle_nested", "ghedt/domains.py:square_and_near_square", "ghedt/utilities.py:number_of_boreholes", "ghedt/design.py:Design"]}
{"id": "C118", "title": "when rounding does not matter", "statement": "If the quotients of the longer side by the spacing bounds are whole numbers or more than one part in 10^15 away from every whole number, and for every admissible number n of gaps along the longer side the quotient shorter*n/longer is more than one part in 10^15 away from every whole number, then rectangular computed with rounding returns the fields of exact arithmetic: the same number of fields, the same number of boreholes in each, every borehole at most one part in 10^15 off.", "quantifier": "all roundings, land sizes and spacing bounds with that property", "why_tests_cant": "all floating-point inputs", "anchors": ["ghedt/domains.py:rectangular"]}
{"id": "C119", "title": "what rounding errors change", "statement": "In double precision: rectangular on 100 m x 100 m with spacings 8 m to 10 m leaves out the 12 x 12 field that exact arithmetic has; bi_rectangle_nested on 65 m x 49 m with spacings 4 m to 5 m returns the domain for 13 rows twice and none for 12; on 65 m x 60 m with spacings 4.5 m to 5 m it returns a field with boreholes less than 4.3 m apart; rectangular can put a borehole beyond the land (10.5 m x 5 m, spacings 0.5 m to 0.625 m); number_of_boreholes(40.3, 3.1) is 13, not 14.", "quantifier": "existence of such inputs in double precision", "why_tests_cant": "rounding errors show on few inputs", "anchors": ["ghedt/domains.py:rectangular", "ghedt/domains.py:bi_rectangle_nested", "ghedt/utilities.py:number_of_boreholes"]}
{"id": "C120", "title": "zoned domains in double precision", "statement": "zoned_rectangle_domain computed in double precision, for a land whose sides are doubles and nx, ny >= 3 boreholes along the sides, nx*ny <= 10^15: it returns nx + ny - 5 fields; the interior grows by one row or one column at a time from one borehole to all of them, so sizes strictly increase up to nx*ny; no two boreholes of a field coincide; every field is the exact zoned field with these interior counts, its boreholes at most one part in 10^15 off, hence inside the land up to that. Which count grows is decided as in exact arithmetic, except that it may go either way where the two spacings compared are in the exact ratio one; if nx - 1 and ny - 1 have no common factor this does not occur and the whole domain is the exact one up to one part in 10^15.", "quantifier": "all lands whose sides are doubles and all pairs of counts", "why_tests_cant": "all floating-point inputs", "anchors": ["ghedt/domains.py:zoned_rectangle_domain", "ghedt/coordinates.py:zoned_rectangle"]}
{"id": "C121", "title": "what rounding changes in zoned domains", "statement": "In double precision: zoned_rectangle_domain on 20 m x 15 m with 5 x 5 boreholes returns fields of 17, 18, 19, 22, 25 boreholes where exact arithmetic gives 17, 18, 20, 22, 25 (a tie decided by rounding errors); bi_rectangle_zoned_nested on a land one bit longer than the maximum spacing of 7 m raises ValueError where exact arithmetic returns.", "quantifier": "existence of such inputs in double precision", "why_tests_cant": "rounding errors show on few inputs", "anchors": ["ghedt/domains.py:zoned_rectangle_domain", "ghedt/domains.py:bi_rectangle_zoned_nested"]}
{"id": "C122", "title": "nested zoned domains in double precision", "statement": "bi_rectangle_zoned_nested computed in double precision, for a land whose sides are doubles, longer than the maximum spacing in each direction by one part in 10^15 at least, at most 10^7 minimum spacings long, with some whole number of boreholes keeping to the spacings on each side: it returns, and so does Design for 'bi-zoned'. The counts along the sides go from the least to the greatest by one at a time, the two sides in turn; the ranges include every count the spacings allow and only counts that keep to them up to one part in 10^15. Each pair (n1, n2) gives n1 + n2 - 5 fields of strictly increasing size up to n1*n2; in front of the first come start-up shapes of 1, 2, 3, ... boreholes, the first at the origin. No two boreholes of a field coincide; when length_x >= length_y all lie in the land up to one part in 10^15.", "quantifier": "all such lands and spacing bounds", "why_tests_cant": "all floating-point inputs", "anchors": ["ghedt/domains.py:bi_rectangle_zoned_nested", "ghedt/design.py:Design"]}
{"id": "C123", "title": "the hours of an hourly simulation in double precision", "statement": "simulate(method='hourly') computed in double precision over n months, 1 <= n <= 10^12, with hourly loads that are doubles: the hours simulated are 1, 2, ..., 730*n and the year of loads is taken as often as n months have started years, exactly as in exact arithmetic: int(n_months/12*8760) is never one less. With method='hybrid' the times are the same and every load is within one part in 2^53 of the exact one.", "quantifier": "all numbers of months up to 10^12, all loads", "why_tests_cant": "all floating-point inputs", "anchors": ["ghedt/ground_heat_exchangers.py:GHE.simulate"]}
{"id": "C124", "title": "the monthly loads in floating point; a constant load may fail", "statement": "If Loads can be constructed in floating-point arithmetic, each month's peak is the exact maximum, its day and two-day window those of exact arithmetic, and total and average are within 2^-43 times the sum and the mean of the absolute loads. For the same positive load in every hour and a response that does not fall with time, construction raises ValueError exactly when rounding makes the temperature of (c-avg)/c*c exceed that of c-avg (and 0) in some month, else the durations are 1e-6 h or 48 h according to rounding; a whole number of kW is safe, with 1e-6 h in every month as in exact arithmetic. In double precision 6.1 kW all year raises ValueError, and 0.9 kW all year gives peaks of 48 h, for a response rising steadily with time.", "quantifier": "all years of loads, all roundings, all orders of adding up dot products", "why_tests_cant": "all floating-point inputs; rounding errors show on few of them", "anchors": ["ghedt/peak_load_analysis_tool/ground_loads.py:Loads"]}
{"id": "C125", "title": "killed while writing files", "statement": "If the process is killed at any point inside js_dump, create_input_file, create_if_not, visualize_domain or oak_ridge_export, the disk is left as before, or with a beginning of the new text in the one file being written (the old contents can be lost), and directories of a beginning of the path made; nothing else changes. js_load after a killed js_dump returns what it would have returned before, the new value, or raises, never another value (if the decoder rejects texts that stop early). visualize_domain leaves complete pictures for the first k fields and at most one part of a picture. Each of these states is possible. Calling the killed function again does exactly what it would have done on the old disk. In any history of calls, each killed or not, files that none of them writes keep their contents.", "quantifier": "all disks, names, values, encoders, domains, kill points and histories", "why_tests_cant": "kill points cannot be enumerated by tests", "anchors": ["ghedt/utilities.py:js_dump", "ghedt/utilities.py:create_input_file", "ghedt/utilities.py:create_if_not", "ghedt/domains.py:visualize_domain", "ghedt/search_routines.py:oak_ridge_export"]}
{"id": "C126", "title": "the hybrid load in floating point", "statement": "HybridLoad computed in floating-point arithmetic from given monthly data (peaks and durations representable, durations at most 49 h, days of the month; what Loads constructs in double precision from hourly loads that are doubles is such) over at most 2^52 hours: it is built, with as many entries as in exact arithmetic; months end at the exact hours; no time is off by more than 2^-51 of the hours simulated, no load by more than 2^-49 T if no month's energies add up to more than 574 T. If the peaks are placed as in C104 the times are strictly increasing as long as fewer than 2^50 times the shortest peak duration (in h) hours are simulated. Over each month that exact arithmetic conserves (C61), energy is conserved up to 2^-49 of the month's energies plus 2^-52 of the hours up to its end times its peaks and a 250th of its energies per hour.", "quantifier": "all monthly data, all roundings, all start and end months", "why_tests_cant": "all floating-point inputs", "anchors": ["ghedt/peak_load_analysis_tool/ground_loads.py:HybridLoad", "ghedt/peak_load_analysis_tool/ground_loads.py:HybridLoad.process_monthly_loads", "ghedt/peak_load_analysis_tool/ground_loads.py:Loads.peak_hour_range"]}
{"id": "C127", "title": "temperatures and decisions in floating point", "statement": "Computed in floating-point arithmetic, the excess has the sign it would have in exact arithmetic for the same extreme temperatures: it is at most 0 iff both limits hold. In whatever order numpy adds up its dot products (with or without fused operations), temperature number i of a simulation is within (i+8) 2^-52 of the superposition in exact arithmetic with the same g-values, relative to the size of what is added up. So a height (or a field) that the sizing or the search accepts meets the limits up to that error, and one that meets them with that error to spare is accepted; for the hybrid loads, and for the hourly loads over any number of years, where the differences of the times are exact.", "quantifier": "all plants, loads, times, g-functions, limits, roundings and orders of summation", "why_tests_cant": "all floating-point inputs and orders of summation", "anchors": ["ghedt/ground_heat_exchangers.py:BaseGHE.cost", "ghedt/ground_heat_exchangers.py:BaseGHE._simulate_detailed", "ghedt/ground_heat_exchangers.py:GHE.simulate", "ghedt/ground_heat_exchangers.py:GHE.size", "ghedt/search_routines.py:Bisection1D.calculate_excess"]}
{"id": "C128", "title": "several designs in one script", "statement": "A script makes designs, computes g-functions, simulates and sizes the exchangers found, sets borehole heights, and goes on after exceptions. Designs given separate Borehole objects do not influence each other: values, exceptions and exchangers are those of the script without the others. With one Borehole object for several designs, every design that returns (near-square, rectangle, bi-rectangle) changes the exchangers found before: they get its maximum height, keep the temperatures simulated before, and simulate with the new height; so does one that raises (near-square, rectangle) after its first field was simulated at minimum height. They are unchanged if the later designs return and have their height as maximum height. Sizing an exchanger (after computing its g-functions or not) gives the same, whatever was done with others. At every point of every script a borehole has the radius and burial depth it was made with, and its first height, one the script gave it, or one within the bounds of a design it was used for.", "quantifier": "all scripts of such statements, all designs, all external behaviour", "why_tests_cant": "all histories of calls on objects sharing state", "anchors": ["ghedt/design.py:Design.find_design", "ghedt/search_routines.py:Bisection1D.initialize_ghe", "ghedt/ground_heat_exchangers.py:GHE.size"]}
{"id": "C129", "title": "temperatures that are not numbers", "statement": "A temperature at a load time that lies before the time of an earlier load (or before 0) is nan, and only these are; simulate() returns the largest and the smallest of the others, so size() and find_design() do not see it. For usable input the hybrid simulation of a newly made exchanger returns also where the times go backwards, provided no two times are closer than 1e-12 s and none is beyond the g-function. If one kind of load (rejection or extraction) is highest in the first hour of a simulated month, not the first one, whose peaks are kept, and the other kind later in the month, the hybrid load puts the middle of that peak eleven hours before the end of the month before; the temperature at its start is nan, and that at its end too if it lasts less than 22 hours. A steady rejection is of that kind in every month.", "quantifier": "all exchangers, databases, load sequences, heights, histories of use; all years of loads", "why_tests_cant": "whether a peak is seen at all depends on the hour it is first reached; all inputs", "anchors": ["ghedt/ground_heat_exchangers.py:GHE.simulate", "ghedt/ground_heat_exchangers.py:BaseGHE._simulate_detailed", "ghedt/peak_load_analysis_tool/ground_loads.py:HybridLoad.process_monthly_loads", "ghedt/peak_load_analysis_tool/ground_loads.py:Loads.peak_hour_range"]}
{"id": "C130", "title": "from an input file to an exported file", "statement": "The script that reads a saved design, finds the field, sizes it by the hybrid method and exports it: whatever it reads and whatever raises, it writes no file but name.json and makes no directory; if something other than the JSON encoder raises, the disk is as before; running it again gives the same result and the same files. For a file written by create_input_file, whatever happened to other files since, it does what finding, sizing and exporting the design object itself does. For sensible arguments (near-square, rectangle, bi-rectangle) it raises what find_design raises, ZeroDivisionError if a temperature simulated at one of the two bounds for the height is at its limit exactly, or what the root finder raises; otherwise the value written has the number of boreholes of the field found, a length between the bounds (the maximum if both bounds are on one side of the limits, else the last one the root finder asked for), the g-function and the equivalent tube of that field at that length, and what is read back later is what decoding that text gives. The shipped script for ORNL input passes no length for a near-square design and always raises AssertionError.", "quantifier": "all disks, saved designs, histories of file calls, encoders, sensible problems, root finders", "why_tests_cant": "whole runs over all inputs and disk states", "anchors": ["ghedt/examples/Design/FromFile/design_from_input.py", "ghedt/examples/Design/FromFile/design_from_ornl_json_input.py", "ghedt/search_routines.py:oak_ridge_export", "ghedt/utilities.py:read_input_file", "ghedt/design.py:Design.find_design", "ghedt/ground_heat_exchangers.py:GHE.size"]}
{"id": "C131", "title": "the short-time response when the linear systems are solved with rounding errors", "statement": "calc_sts_g_functions solves a tridiagonal system at every step. Whatever the solver returns, as long as it is one number per equation, the simulation terminates with the sample times of C73. If every equation is solved up to eps times the sum of the magnitudes of its terms (as a backward stable solver does), the last one (which only names a value) exactly, and eps is small for the tube, no sample of the g-function differs from that of exact solving by more than a fixed multiple of eps (given by the total resistance and heat capacities of the grid), however many steps are made: errors do not build up. If that error is at most a sixtieth of the rise of the core temperature in the last hour of two days, the response at the hours 1 to 48 still does not fall, stays above its value without heat and grows at most in proportion to time, and each hour's rise is at most three times that of any hour before, which is all the peak durations (C58, C104) and the making of an exchanger (C95, C105) need of the solver.", "quantifier": "all sound tubes, all solvers with the stated accuracy (not only exact ones), all numbers of steps", "why_tests_cant": "1441 successive rounded solves for every tube; an accumulating error would show only for long final times", "anchors": ["ghedt/peak_load_analysis_tool/radial_numerical_borehole.py:RadialNumericalBH.calc_sts_g_functions", "ghedt/peak_load_analysis_tool/radial_numerical_borehole.py:RadialNumericalBH.fill_radial_cell", "ghedt/peak_load_analysis_tool/ground_loads.py:HybridLoad"]}
{"id": "C132", "title": "only temperature differences matter to a design", "statement": "If the undisturbed ground temperature and both limits on the heat pump entering temperature are raised by the same number of degrees, every design - find_design() for any constraints and routine, find_design() followed by sizing, and the script that exports the result - ends in the same way: with the same exception, or the same field, the same excess temperatures and drilling lengths on record, the same height and warnings, the same borehole wall temperature changes and hybrid loads, and all predicted fluid temperatures raised by exactly that number of degrees; the exported file is the same. g-functions do not depend on the undisturbed ground temperature unless pygfunction looks for it in the exchangers it is given.", "quantifier": "all problems, sensible or not, all shifts, all external libraries whose g-functions do not depend on the undisturbed ground temperature", "why_tests_cant": "A test compares two designs; a hidden absolute temperature (a property evaluated at the ground temperature, a limit compared before the offset is added, a start value) would show only where it tips a decision.", "anchors": ["ghedt/design.py:Design.find_design", "ghedt/search_routines.py:Bisection1D", "ghedt/search_routines.py:Bisection2D", "ghedt/search_routines.py:BisectionZD", "ghedt/search_routines.py:oak_ridge_export", "ghedt/ground_heat_exchangers.py:GHE.simulate", "ghedt/ground_heat_exchangers.py:GHE.size", "ghedt/ground_heat_exchangers.py:BaseGHE.cost", "ghedt/ground_heat_exchangers.py:BaseGHE._simulate_detailed", "ghedt/peak_load_analysis_tool/equivalance.py:compute_equivalent", "ghedt/gfunction.py:calculate_g_function"]}
{"id": "C133", "title": "heating and cooling are treated alike", "statement": "If every hourly load changes its sign (heat is rejected where it was extracted and the other way round), the undisturbed ground temperature T becomes a - T, and the limits on the heat pump entering temperature become a - minimum (as maximum) and a - maximum (as minimum), every design - find_design() for any constraints and routine, find_design() followed by sizing, and the script that exports the result - ends in the same way: with the same exception, or the same field, the same excess temperatures and drilling lengths on record, the same height and warnings, and the same exported file; every predicted fluid temperature T is a - T instead (the highest is the mirrored lowest), borehole wall temperature changes and hybrid loads have the other sign at the same hours, and the monthly loads of rejection and extraction are exchanged. Neither a load of zero, nor the order of the peaks in a month, nor which of the two kinds fails, breaks this symmetry.", "quantifier": "all problems, sensible or not, all loads, all levels a, all external libraries whose g-functions do not depend on the undisturbed ground temperature", "why_tests_cant": "A test compares a few cases for heating with cases for cooling; a sign, an order of the two kinds of peaks or a comparison with zero that favours one kind would show only in some months of some years.", "anchors": ["ghedt/design.py:Design.find_design", "ghedt/search_routines.py:Bisection1D", "ghedt/search_routines.py:BisectionZD", "ghedt/search_routines.py:oak_ridge_export", "ghedt/ground_heat_exchangers.py:GHE.simulate", "ghedt/ground_heat_exchangers.py:GHE.size", "ghedt/ground_heat_exchangers.py:BaseGHE.cost", "ghedt/ground_heat_exchangers.py:BaseGHE._simulate_detailed", "ghedt/peak_load_analysis_tool/ground_loads.py:HybridLoad.split_heat_and_cool", "ghedt/peak_load_analysis_tool/ground_loads.py:HybridLoad.process_monthly_loads", "ghedt/peak_load_analysis_tool/ground_loads.py:HybridLoad"]}
{"id": "C134", "title": "more heat rejected makes no hour colder, and a part of the load needs no larger field", "statement": "Take two years of hourly loads, the second of which rejects at least as much (or extracts at most as much) heat in every hour, on the same field at the same height. If the response of the field to a constant load does not fall over time, an hourly simulation never gives a lower mean fluid temperature at any hour for the second; at hours of equal load the entering temperature is no lower either, and at all hours (with the two extremes returned) if a load changes the mean temperature within its first hour by at least half the difference between inlet and outlet. With heat rejected only, no temperature is below that of the ground, every hour is at least as warm as the same hour of the year before, the maximum is reached in the last year and the minimum in the first. A field that is within the limits stays so for a part of the loads (of one sign), and the near-square and rectangle routines select for a part of the loads a field that is not later in the candidate list, if the temperatures of the candidates are graded. The response does not fall if the linear solver is exact, the g-function is non-decreasing and above the short-time response, and the equivalent tube is no more resistive than the exchanger.", "quantifier": "all fields, heights, media, numbers of years, all pairs of ordered hourly loads, all g-functions and solvers with a response that does not fall", "why_tests_cant": "A test compares two loads at a few hours; superposition over a whole history with a wrong index, sign or window would break the order only for some pairs of loads.", "anchors": ["ghedt/ground_heat_exchangers.py:GHE.simulate", "ghedt/ground_heat_exchangers.py:BaseGHE._simulate_detailed", "ghedt/ground_heat_exchangers.py:BaseGHE.cost", "ghedt/ground_heat_exchangers.py:BaseGHE.combine_sts_lts", "ghedt/search_routines.py:Bisection1D.search", "ghedt/design.py:Design.find_design"]}
{"id": "C135", "title": "simulating more years leaves the first years as they were", "statement": "Simulating the same loads hour by hour for more years gives, for the years simulated before, exactly the same temperatures; so the maximum is no lower and the minimum no higher. A field within the limits over more years is within them over fewer, and the near-square and rectangle routines select for fewer years a field that is not later in the candidate list, if the temperatures of the candidates are graded.", "quantifier": "all fields, heights, media, hourly loads and pairs of simulation lengths the g-function covers", "why_tests_cant": "A test runs one pair of lengths on one field; a response that depended on the length of the simulation (its last time, its number of steps) would show only for some.", "anchors": ["ghedt/ground_heat_exchangers.py:GHE.simulate", "ghedt/ground_heat_exchangers.py:BaseGHE._simulate_detailed", "ghedt/ground_heat_exchangers.py:BaseGHE.grab_g_function", "ghedt/search_routines.py:Bisection1D.search", "ghedt/design.py:Design.find_design"]}
{"id": "C136", "title": "loads superpose, and loads all reduced by one factor need no larger field", "statement": "If the load of every hour is a times that of one year plus b times that of another, an hourly simulation on the same field at the same height gives at every hour a difference from the ground temperature that is a times that for the one plus b times that for the other. Multiplying all loads by a multiplies all differences by a; the maximum comes from the maximum if a is positive, and from the minimum if it is negative. A field within the limits stays within them when all loads (of either sign) are reduced by one factor, if the ground temperature lies between the limits, and the near-square and rectangle routines then select a field that is not later in the candidate list, if the temperatures of the candidates are graded. No assumption on the g-function, the solver or the resistances is needed.", "quantifier": "all fields, heights, media, g-functions, numbers of years, all hourly loads and all real factors", "why_tests_cant": "A test compares a few loads; a constant offset, an absolute value or a clipped load in the superposition would break proportionality only for some of them.", "anchors": ["ghedt/ground_heat_exchangers.py:GHE.simulate", "ghedt/ground_heat_exchangers.py:BaseGHE._simulate_detailed", "ghedt/ground_heat_exchangers.py:BaseGHE.cost", "ghedt/search_routines.py:Bisection1D.search", "ghedt/design.py:Design.find_design"]}
{"id": "C137", "title": "looser limits need no larger field, but limits can be too loose", "statement": "The temperatures predicted for a field do not depend on the limits they are compared with, with either simulation method. Whatever the near-square and rectangle routines select, for looser limits they select a field that is not later in the candidate list, if the temperatures of the candidates are graded for the looser limits. But for every nonempty list of candidates that can be simulated there are limits such that with them, and with all looser ones, the routines raise ValueError, although every candidate is within the limits at its full height.", "quantifier": "all problems, candidate lists, methods and pairs of limits", "why_tests_cant": "A test tries one pair of limits; that no limit enters the simulation, and that loosening far enough always ends in an error, are statements about all of them.", "anchors": ["ghedt/ground_heat_exchangers.py:GHE.simulate", "ghedt/ground_heat_exchangers.py:BaseGHE.cost", "ghedt/search_routines.py:Bisection1D.search", "ghedt/search_routines.py:Bisection1D.calculate_excess", "ghedt/design.py:Design.find_design"]}
{"id": "C138", "title": "The sized height is the least sufficient one, and easier problems need no greater height", "statement": "size() for an exchanger within the range of its g-function database, whatever was done with it before: it returns if the object can be simulated at all heights between the bounds, its temperatures are not exactly at a limit at a bound, and the root finder returns. Where the limits, once kept, are kept with something to spare at every greater height, and the minimum height does not keep them, the height left is the least that keeps them, up to the tolerance of the root finder: no height lower by more than that keeps them and every height greater by more than that does. Under the same condition looser temperature limits, or all hourly loads multiplied by one factor of at most 1 (hourly method, ground temperature within the limits), give no greater height, up to twice the tolerance, as long as the minimum height still does not keep the limits. That proviso is needed: for ground strictly between the limits there is a positive factor such that for loads multiplied by it or by any smaller positive number the height left is the maximum, with the warning that it is not deep enough.", "quantifier": "every exchanger object within the range of its database, every history of operations, every bracketing root finder and tolerance, all limits and factors", "why_tests_cant": "the comparison is between two runs of a root finder over all its probes, for all loads and limits", "anchors": ["ghedt/ground_heat_exchangers.py:GHE.size", "ghedt/ground_heat_exchangers.py:GHE.simulate", "ghedt/peak_load_analysis_tool/equivalance.py:solve_root"]}
{"id": "C139", "title": "Multiplied loads: hybrid load, temperatures and designs with either method, and where the tolerance interferes", "statement": "Multiply all hourly loads by one positive number. If in the two days looked at for a month's peak no load exceeds that peak by less than 0.1 kW, neither before nor after, then the peak days, the peak durations and the hours of the hybrid load stay the same and the peaks, the monthly totals and averages and the loads of the hybrid sequence are multiplied by that number. With either simulation method every difference between a predicted temperature and the ground temperature is then multiplied by it too. For a factor of at most 1 and limits on either side of the ground temperature, a field within the limits stays within them, the near-square and rectangle routines select a field not later in the candidate list (graded candidates), and size() leaves a height no greater, up to twice the tolerance of the root finder, if the minimum height is still not enough. Without the condition on the loads this fails, because the tolerance of 0.1 kW is absolute: if a month first reaches its peak on its last day, after the first hour, and the next day exceeds it, then with a flat positive response these loads multiplied by any small enough number are refused with ValueError and multiplied by any large enough number are accepted.", "quantifier": "all loads, positive factors, g-functions, candidate lists, heights and both methods", "why_tests_cant": "A test multiplies one year of loads by one number; the peak duration comes from an interpolation in a simulated response, so its independence from the size of the loads needs the whole simulation.", "anchors": ["ghedt/peak_load_analysis_tool/ground_loads.py:Loads.find_peak_durations", "ghedt/peak_load_analysis_tool/ground_loads.py:Loads.process_two_day_loads", "ghedt/peak_load_analysis_tool/ground_loads.py:Loads.simulate_hourly", "ghedt/peak_load_analysis_tool/ground_loads.py:Loads.perform_current_month_simulation", "ghedt/peak_load_analysis_tool/ground_loads.py:HybridLoad.process_monthly_loads", "ghedt/ground_heat_exchangers.py:GHE.simulate", "ghedt/ground_heat_exchangers.py:GHE.size", "ghedt/search_routines.py:Bisection1D.search"]}
{"id": "C140", "title": "small errors in the response change the temperatures little, and a design with margins not at all", "statement": "Take the hourly method over whole years. If no sample of the short-time response and no value of the g-function differs by more than eta from what it should be, then no hourly temperature predicted differs by more than eta times the sum of the absolute changes of the load up to that hour, per metre of borehole and divided by 2*pi*k; and neither do the highest and lowest temperature returned. In particular, a linear solver with a small relative error changes them, against an exact one, by at most that sum per metre times the bound on the error of its temperatures. If the candidates of a design are graded with a margin - each consecutive excess falls by more than 2*eta and none at the heights tried is within eta of zero - and the extremes of two problems with the same limits differ by at most eta, the near-square and rectangle routines select the same field for both; so a design computed with an inexact solver is the one an exact solver would have given. And if two exchangers have extremes within eta of each other at every height, deeper is better for both, and w metres more make a difference of at least eta for one of them, the heights size() leaves differ by at most w and twice the tolerance of the root finder.", "quantifier": "all exchangers, responses, solvers, whole-year hourly loads, error bounds, candidate lists and heights", "why_tests_cant": "A test compares with reference values of one case; how errors go through hundreds of thousands of superposed terms, through the comparisons of a search and the probes of a root finder is a statement about all of them.", "anchors": ["ghedt/ground_heat_exchangers.py:GHE.simulate", "ghedt/ground_heat_exchangers.py:BaseGHE._simulate_detailed", "ghedt/ground_heat_exchangers.py:GHE.size", "ghedt/peak_load_analysis_tool/radial_numerical_borehole.py:RadialNumericalBH.calc_sts_g_functions", "ghedt/search_routines.py:Bisection1D.search", "ghedt/design.py:Design.find_design"]}
{"id": "C141", "title": "loads and parameters changed in place: seen by the hourly method and by sizing, not by the hybrid method", "statement": "An exchanger keeps the caller's list of hourly loads and SimulationParameters object, so a caller who changes them in place (loads, months, temperature limits, height bounds) changes what the exchanger works with. After any interleaving of simulations, sizings, heights set and such changes, within the range of the g-function database: a simulation at a height gives what a newly made exchanger in the same surroundings, with the contents the shared objects have at the end, gives at that height - earlier contents leave no trace; size() has the outcome and leaves the height it would for the new one; and the hybrid method gives exactly what it gave before all changes, because the hybrid load was computed on construction. Compared with an exchanger made from the problem with the changed contents, the changed exchanger differs in nothing but the hybrid load, and hourly simulations agree at every height. So if the loads are multiplied in place by a positive number (under the condition of C139), the hourly method gives the differences from the ground temperature multiplied by it, as the exchanger made anew does, and the hybrid method the old ones, unlike the exchanger made anew.", "quantifier": "all exchangers within the range of their database, all interleavings of operations and changes, all contents, both methods", "why_tests_cant": "A test changes one object once; that no earlier contents survive, and that exactly the hybrid load goes stale, ranges over all histories.", "anchors": ["ghedt/ground_heat_exchangers.py:GHE.__init__", "ghedt/ground_heat_exchangers.py:GHE.simulate", "ghedt/ground_heat_exchangers.py:GHE.size", "ghedt/ground_heat_exchangers.py:BaseGHE.cost", "ghedt/peak_load_analysis_tool/ground_loads.py:HybridLoad.__init__", "ghedt/peak_load_analysis_tool/media.py:SimulationParameters"]}
{"id": "C142", "title": "media changed in place: seen by later simulations, except for the conductivities in the borehole resistance", "statement": "An exchanger keeps the caller's fluid, pipe, grout and soil objects. After any interleaving of simulations, sizings, heights set, printing and exporting, changes of loads and parameters in place (C141) and changes of the media in place - whatever was simulated with earlier contents, even if it raised - that leave alone the conductivities of soil and grout, the geometry and, for a coaxial exchanger, the roughness: a simulation at a height gives what an exchanger made anew with the contents at the end (same mass flow, hybrid load as it was) gives, and size() has its outcome and leaves its height. If the conductivities of soil or grout of a U-tube exchanger are changed too, it acts as the exchanger made anew except that the part computing the effective borehole resistance keeps the conductivities the exchanger was first made with: update_thermal_resistance() returns the same value as before for every new conductivity, not that of an exchanger made anew.", "quantifier": "all exchangers within the range of their database, all interleavings of operations and changes, all contents of the media", "why_tests_cant": "A test changes one property once; that no earlier contents survive any history, and that exactly two conductivities do, ranges over all histories and values.", "anchors": ["ghedt/peak_load_analysis_tool/borehole_heat_exchangers.py:BasePipe.__init__", "ghedt/peak_load_analysis_tool/borehole_heat_exchangers.py:BasePipe.compute_resistances", "ghedt/peak_load_analysis_tool/borehole_heat_exchangers.py:SingleUTube.update_thermal_resistance", "ghedt/peak_load_analysis_tool/borehole_heat_exchangers.py:MultipleUTube.update_thermal_resistance", "ghedt/peak_load_analysis_tool/borehole_heat_exchangers.py:CoaxialPipe.update_thermal_resistance", "ghedt/ground_heat_exchangers.py:GHE.simulate", "ghedt/ground_heat_exchangers.py:GHE.size", "ghedt/peak_load_analysis_tool/equivalance.py:compute_equivalent"]}
{"id": "C143", "title": "scripts that compare exchangers: what is printed about each does not depend on the others", "statement": "A script makes several designs with one borehole object and, one after another, finds, sizes (hybrid method) and reports each; sizing leaves its height on the shared borehole. If the first candidate field of each design can be made with the heights the borehole is left with, the script prints about each design what a script with that design alone prints, up to the first one that raises; that exception ends the script and nothing is printed about that design or later ones. If none raises, the order of the designs does not matter. What is printed: the height that sizing left, between minimum and maximum height; the number of boreholes of the field that find_design returned; and their product as total drilling.", "quantifier": "all borehole objects, lists of designs of any routine, problems and candidates; all permutations", "why_tests_cant": "A test compares a few designs in one order; that no design depends on the ones before it ranges over all lists and heights left behind.", "anchors": ["ghedt/examples/Design/find_near_square.py", "ghedt/examples/Design/find_rectangle.py", "ghedt/examples/Design/find_bi_rectangle.py", "ghedt/examples/Design/find_bi_zoned_rectangle.py", "ghedt/design.py:Design.find_design", "ghedt/ground_heat_exchangers.py:GHE.size", "ghedt/ground_heat_exchangers.py:BaseGHE.compute_g_functions"]}
{"id": "C144", "title": "exchangers made from a g-function database: what simulating and sizing them can do", "statement": "An exchanger is made directly from a g-function database, imported from a file or computed for some heights, and a spacing. For sensible arguments and a complete database at Eskilson's times with one borehole radius, whose heights (scaled by the ratio of the spacings) enclose the height bounds and the borehole's height: making it raises nothing and keeps database, spacing and borehole; simulating it raises nothing at any such height, by either method; and after any use between the bounds size() raises nothing but ZeroDivisionError (exactly when a temperature at a bound is at its limit exactly) or what the root finder raises, and otherwise leaves the maximum height (equal signs at the bounds) or the last height the root finder asked for. The script that reads the database from a file prints that height. The script that computes g-functions first prints the temperatures from the g-function of one height: they are those the exchanger with several heights gives at that height, and, if the spacing given is that of the coordinates, those a search judges the field by.", "quantifier": "all sensible arguments, complete databases, spacings, lists of heights, methods and histories of use", "why_tests_cant": "A test runs the two scripts on one file; that one stored height gives exactly the temperatures of several, and that sizing has no other outcome, ranges over all databases and arguments.", "anchors": ["ghedt/examples/gFunctions/computed_g_function_sim_and_size.py", "ghedt/examples/gFunctions/live_g_function_sim_and_size.py", "ghedt/gfunction.py:compute_live_g_function", "ghedt/gfunction.py:GFunction.g_function_interpolation", "ghedt/ground_heat_exchangers.py:GHE.__init__", "ghedt/ground_heat_exchangers.py:GHE.simulate", "ghedt/ground_heat_exchangers.py:GHE.size"]}
{"id": "C145", "title": "scripts that write designs to files: which files exist afterwards, and what designing from them does", "statement": "A script makes one GeometricConstraints object by keyword and from it, one after another, designs that it writes with create_input_file. If every name given is a parameter, each constraint has the value given under its name and is None otherwise; with any other name (such as unconstrained, which two of the shipped scripts pass) the script raises TypeError and writes nothing. Otherwise, however it ends, it makes no directory and changes no file but those of the designs, each the name given with .obj added. If it returns, every design is in its file; if it raises, the designs before some design are in theirs, that design raised when it was made (then its file is as before) or when it was written, and the files of later designs are as before. After it returned, and after any other work with files that does not write to it, designing from the file of a design does what finding, sizing and exporting that design does, if the decoder undoes the encoder on that design.", "quantifier": "all keyword arguments, lists of designs with different file names, disks, encoders and later histories of file operations", "why_tests_cant": "A test writes and reads three files; that no other file changes and what a failing design leaves ranges over all lists, disks and points of failure.", "anchors": ["ghedt/examples/Design/FromFile/create_near_square_input_file.py", "ghedt/examples/Design/FromFile/create_rectangular_input_file.py", "ghedt/examples/Design/FromFile/create_bi_rectangle_input_file.py", "ghedt/examples/Design/FromFile/design_from_input.py", "ghedt/media.py:GeometricConstraints", "ghedt/design.py:Design.__init__", "ghedt/utilities.py:create_input_file", "ghedt/utilities.py:read_input_file"]}
{"id": "C146", "title": "the ground response in floating point", "statement": "With every operation rounded: linear interpolation raises exactly what it raises in exact arithmetic and otherwise is within 2^-47 of the largest ordinate; at the points of a table it returns the stored number without any error. The correction for the borehole radius leaves a curve unchanged, without error, when the radii agree; otherwise each entry is off by at most the error of the logarithm and two roundings. A response evaluated at a time difference, through a logarithm of relative error eta, is within L s + 2^-47 M of exact arithmetic (L the greatest slope, M the largest ordinate of the table, s = 2^-50 + eta (W + 2^-50), W the largest abscissa), unless the time is within s of the ends of the table. So temperature number i of a simulation is within (i+8) 2^-52 of the exact superposition of exact responses, relative to the size of what is added up, plus twice that error times the sizes of the loads before and after each step (summed, as divided in the superposition); a height or field accepted in floating point meets the limits of exact arithmetic up to that error, and one that meets them with it to spare is accepted.", "quantifier": "all tables, times, radii, plants, loads, roundings, orders of summation and logarithms of bounded relative error", "why_tests_cant": "A test compares a few numbers with a tolerance; that the error stays bounded, for every table, history of loads and library, is about all of them.", "anchors": ["ghedt/ground_heat_exchangers.py:BaseGHE._simulate_detailed", "ghedt/ground_heat_exchangers.py:BaseGHE.grab_g_function", "ghedt/ground_heat_exchangers.py:BaseGHE.cost", "ghedt/gfunction.py:GFunction.borehole_radius_correction", "ghedt/ground_heat_exchangers.py:GHE.size"]}
{"id": "C147", "title": "a new exchanger simulated in floating point", "statement": "For a new exchanger whose borehole model is computed exactly, with the radius correction, the logarithms of times, the interpolation of the response, the conversion of loads and hours, the temperatures and the excess all rounded: simulating raises nothing, and each temperature it stores is within (i+8) 2^-52 of the one exact arithmetic gives, relative to the size of what is added up, plus twice the error of the ground response times the sizes of the loads before and after each step (summed, as divided in the superposition). Its extremes are off by no more than the largest such error. If the excess it computes for its height is not positive, every exact temperature is within the limits up to that error; if every exact temperature is within the limits by that much, the excess is not positive. This holds hourly in double precision for any number of years that the g-function covers by a small margin, and for the hybrid loads in any rounding if their hours are apart. The bounds that enter the error (largest ordinate and slope) exist for every such exchanger.", "quantifier": "all problems, fields and heights that can be simulated, stored curves and loads that are floating-point numbers, orders of summation, logarithms of bounded relative error; all numbers of years", "why_tests_cant": "A test runs one exchanger in floating point and has no exact value to compare with; that the verdict is right up to a known error is about all exchangers and loads.", "anchors": ["ghedt/ground_heat_exchangers.py:GHE.simulate", "ghedt/ground_heat_exchangers.py:BaseGHE._simulate_detailed", "ghedt/ground_heat_exchangers.py:BaseGHE.grab_g_function", "ghedt/ground_heat_exchangers.py:BaseGHE.cost", "ghedt/ground_heat_exchangers.py:GHE.size", "ghedt/search_routines.py:Bisection1D.calculate_excess"]}
{"id": "C148", "title": "a design found in floating point", "statement": "The near-square, rectangle and bi-rectangle searches look at nothing but the sign of the excess of each candidate at minimum and maximum height and the order of the excesses at maximum height: if the simulation is replaced by any other that agrees on these, the search ends with the same field and index, or with the same exception. Now let each candidate's extreme temperatures be computed in floating point, off by at most E (which, by C147, is a known number for hourly and hybrid loads), and the excess rounded. Whatever field the search returns is a candidate whose exact temperatures are within the limits up to E, at maximum height or, for the first candidate, at minimum height. If no candidate's exact excess is within its error of 0 and no two different candidates have exact excesses at maximum height within the sum of their errors of each other, find_design in floating point does what it does in exact arithmetic: the same field, the same index or the same exception.", "quantifier": "all problems, lists and nested lists of candidates, routines other than bi-zoned, roundings, orders of summation, logarithms of bounded relative error and errors E", "why_tests_cant": "A test runs one search in floating point; that rounding cannot lead a search to an unsafe field, nor to another field unless there is a near tie, is about all problems and all candidates.", "anchors": ["ghedt/search_routines.py:Bisection1D.search", "ghedt/search_routines.py:Bisection1D.calculate_excess", "ghedt/search_routines.py:Bisection2D.__init__", "ghedt/design.py:Design.find_design", "ghedt/ground_heat_exchangers.py:GHE.simulate", "ghedt/ground_heat_exchangers.py:BaseGHE.cost"]}
{"id": "C149", "title": "converting an exchanger and printing the result", "statement": "The scripts double_to_single_u_tube.py and coaxial_to_single_u_tube.py, for any dimensions, materials, fluid and flow: the first four numbers printed are the cross-sections of fluid and walls of the exchanger given and the two resistances the conversion aims at. If the conversion raises, nothing more is printed and no picture is written. Otherwise the flow printed is the flow the script began with, in L/s; the radii are sqrt(2) times those of the pipe (double) or sqrt((r1^2+r3^2-r2^2)/2) and r4/sqrt(2) (coaxial); the gap between the legs is positive, and they fit into the borehole whenever two legs of that radius do; the convection coefficient is that of the whole flow in the new pipe; the conductivities are within the ranges searched; and the borehole resistance printed is that of the exchanger given, up to the tolerance of the root finder, if it lies between those of the tube with grout of 0.01 and 7 W/mK. Then follow the report of the tube and its picture; nothing else on disk changes.", "quantifier": "all dimensions, materials, fluids, flows, correlations, resistance models, root finders, texts of numbers and earlier contents of the disk", "why_tests_cant": "A test runs the two scripts as they are; that the numbers fit together is about all exchangers and libraries.", "anchors": ["ghedt/examples/BHE/EquivalentPipes/double_to_single_u_tube.py", "ghedt/examples/BHE/EquivalentPipes/coaxial_to_single_u_tube.py", "ghedt/peak_load_analysis_tool/equivalance.py:compute_equivalent", "ghedt/peak_load_analysis_tool/equivalance.py:u_tube_volumes", "ghedt/peak_load_analysis_tool/equivalance.py:concentric_tube_volumes", "ghedt/peak_load_analysis_tool/borehole_heat_exchangers.py:BasePipe.compute_effective_borehole_resistance"]}
{"id": "C150", "title": "borehole resistances printed, tabulated and plotted", "statement": "The scripts in examples/BHE/BoreholeResistance, for any dimensions, materials, fluid and flow. SingleUTube.py and DoubleUTube.py print the report, the Reynolds number 2m/(pi mu r) of the flow in a leg (in parallel half of that in series), the resistance of the pipe, the convection coefficient of the flow in a leg and the effective resistance of the thermal circuit at the whole flow; what they call the convective resistance is the convective resistance plus that of the pipe. Coaxial.py prints 2m/(pi mu r4), which is not the Reynolds number of the annulus but that times (r2+r3)/r4. The tables of validation.py have the flow rates in the order given and, beside each, Reynolds number and resistance of the exchanger built for that flow alone. Its two pictures are written exactly if the workbook has the three sheets, each with columns of one length, and then show for each exchanger one point per flow rate and the points of the sheet with its name; otherwise neither is written, and the error is that of the workbook, KeyError or ValueError.", "quantifier": "all dimensions, materials, fluids, lists of flows, correlations, resistance models, workbooks, texts of numbers and earlier contents of the disk", "why_tests_cant": "A test runs the scripts as they are; that every row belongs to its flow rate and what a missing sheet leaves behind is about all lists and workbooks.", "anchors": ["ghedt/examples/BHE/BoreholeResistance/SingleUTube.py", "ghedt/examples/BHE/BoreholeResistance/DoubleUTube.py", "ghedt/examples/BHE/BoreholeResistance/Coaxial.py", "ghedt/examples/BHE/BoreholeResistance/validation.py", "ghedt/peak_load_analysis_tool/borehole_heat_exchangers.py:compute_Reynolds", "ghedt/peak_load_analysis_tool/borehole_heat_exchangers.py:compute_Reynolds_concentric", "ghedt/peak_load_analysis_tool/borehole_heat_exchangers.py:BasePipe.compute_effective_borehole_resistance"]}
{"id": "C151", "title": "a design from another program's parameter file", "statement": "The script design_from_ornl_json_input.py. As it is, it raises and leaves the disk as it was, whatever the files: with all twelve parameters and the loads at hand it raises AssertionError, because the near-square routine wants a length and is given none. It looks at twelve keys of the parameter file only; the temperature limits, the minimum height and the period in it (max_EFT, min_EFT, min_height, simulation_period) change nothing. Given a length as well, it either raises and leaves the disk as it was or changes nothing but its output file, and what is written there describes the parameters read: outer radius half the diameter, inner radius that minus the thickness, legs on the x axis at a distance from the centre of half the gap plus the radius, the conductivities, and a mass flow per borehole that times the number of boreholes is the design flow (m3/s, of the whole field) times the density; the field is a square or near-square grid of the spacing read, with at most floor(length/spacing)+1 boreholes along its shorter side.", "quantifier": "all parameter files, tables of loads, earlier contents of the disk, lengths, external libraries and encoders", "why_tests_cant": "A test runs the script on one parameter file; that it can never succeed, and that a repaired one would report the data it was given, is about all files and libraries.", "anchors": ["ghedt/examples/Design/FromFile/design_from_ornl_json_input.py", "ghedt/media.py:GeometricConstraints", "ghedt/design.py:Design", "ghedt/search_routines.py:oak_ridge_export", "ghedt/utilities.py:js_load", "ghedt/peak_load_analysis_tool/media.py:Pipe.place_pipes"]}
{"id": "C152", "title": "the design does not depend on where the land lies", "statement": "If all candidate fields are moved, turned or mirrored the same way, so that no distance between boreholes changes, and the g-functions do not depend on the place (as they do not if pygfunction sees of vertical boreholes only the distances between them), then each of the four searches ends as before: with the same exception, or with the candidate of the same index, moved; the recorded excess temperatures and total lengths are the same, the exchanger held differs in nothing but the coordinates of its boreholes, also after sizing, and the exported file is the same. In particular exchanging length and width of land that is not square mirrors a rectangle design at the diagonal, and a bi-rectangle design if the two largest spacings are exchanged as well. (For bi-zoned designs this fails, C15 and C18.)", "quantifier": "all problems, motions of the plane, candidates, routines, constraints, encoders, disks and external libraries", "why_tests_cant": "A test compares two places for one problem; that nothing in simulation, search, sizing or export looks at absolute coordinates or at the orientation of the land is about all of them.", "anchors": ["ghedt/design.py:Design.find_design", "ghedt/domains.py:rectangular", "ghedt/domains.py:bi_rectangle_nested", "ghedt/utilities.py:borehole_spacing", "ghedt/search_routines.py:Bisection1D", "ghedt/search_routines.py:Bisection2D", "ghedt/search_routines.py:BisectionZD", "ghedt/gfunction.py:calculate_g_function", "ghedt/search_routines.py:oak_ridge_export"]}
{"id": "C153", "title": "the scripts that find a design and draw it", "statement": "The scripts find_near_square.py, find_rectangle.py, find_bi_rectangle.py and find_bi_zoned_rectangle.py all get candidate fields for the constraints they set. What they print, and the exception that ends them if one does, is what the same designs made without a picture would print (C143). If the first design raises, nothing is printed and the disk is as it was; otherwise exactly one file is written, the picture, and it shows the boreholes of the field found for the first exchanger, whatever happens to the others; with land and building drawn, all boreholes are on the land and none is in the building. Violated: find_bi_zoned_rectangle.py makes a zoned design for the first exchanger only; the others are designed with the bi-rectangle routine, from full grids, so that it compares the results of two routines.", "quantifier": "all problems given to the scripts, numbers of exchangers, earlier contents of the disk, external libraries and renderings", "why_tests_cant": "A test runs a script on its one building with the installed libraries; that the picture never disturbs the reports and always belongs to the first design is about all of them.", "anchors": ["ghedt/examples/Design/find_near_square.py", "ghedt/examples/Design/find_rectangle.py", "ghedt/examples/Design/find_bi_rectangle.py", "ghedt/examples/Design/find_bi_zoned_rectangle.py", "ghedt/gfunction.py:GFunction.visualize_area_and_constraints", "ghedt/utilities.py:make_rectangle_perimeter", "ghedt/design.py:Design"]}
{"id": "C154", "title": "the shipped building and materials are accepted", "statement": "The numbers of the scripts find_*.py and the 8760 loads of Atlanta_Office_Building_Loads.csv meet the conditions of C58, C75, C95, C105 and C107. For every response that does not fall with time the rejected and the extracted heat are decomposed, with durations in (0,48] h, and the peaks are attributed to stated days. The U-tube pipes lie inside the borehole and do not overlap. For every library that answers sensibly (g-functions, correlations, root finder, linear solver), each of the three exchangers of the scripts and every field of different boreholes the ground heat exchanger can be made at 60, 96 and 135 m, its hybrid load has times at least 1e-6 h apart, its hybrid simulation returns the extremes of temperatures that are all numbers (no peak is passed over as in C129), and with either method (the scripts use the hybrid one) find_design in the land of each of the four scripts ends as C107 says. Every such field can be sized between 60 and 135 m by either method, with the outcomes of C115; a field returned in the first three lands has its g-functions computed and is sized, and at 135 m its temperatures are within 5 and 35 degrees, unless it is the first field and within them at 60 m; the bi-zoned search, which sizes inside, ends as C115 says. The January and February peaks of rejection are attributed to the last day of the month, where C104 asks that they be short; they are.", "quantifier": "all responses that do not fall, all external libraries that answer sensibly, all fields of different boreholes, the three exchangers and the four lands of the scripts", "why_tests_cant": "A test runs a script with the installed libraries and sees one field and one response; that no constructor fails for any candidate, and for no sensible library, is about all of them.", "anchors": ["ghedt/examples/Atlanta_Office_Building_Loads.csv", "ghedt/examples/Design/find_near_square.py", "ghedt/examples/Design/find_rectangle.py", "ghedt/examples/Design/find_bi_rectangle.py", "ghedt/examples/Design/find_bi_zoned_rectangle.py", "ghedt/peak_load_analysis_tool/ground_loads.py:Loads.find_peak_durations", "ghedt/peak_load_analysis_tool/media.py:Pipe.place_pipes", "ghedt/design.py:Design.find_design"]}

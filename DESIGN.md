# Formal model of GHEDT — design

Subject: `j-c-cook/ghedt` at the pinned commit in `/repo`. Everything here is Lean 4.33.0 + Mathlib, in `lean/Verif/`.

## Layout

| directory | contents |
|---|---|
| `Verif/Py.lean` | the Python semantics we rely on: exceptions as `Except PyErr`, indexing (with negative indices), slices, slice assignment, `range`, `int()`, `floor`/`ceil`, `max`/`min`, insertion-ordered dictionaries, true division that raises on zero |
| `Verif/Model/*.lean` | the model, one file per source file, one definition per function; each definition cites file and lines |
| `Verif/Spec/*.lean` | small specifications: what "lies in the land", "sizes strictly increase", "nondecreasing" … mean, written without reference to the model |
| `Verif/Lemmas/*.lean` | helper lemmas |
| `Verif/Props/*.lean` | the property theorems and, beside each, an `example` showing that a concrete, non-trivial case meets the hypotheses |
| `Verif/Audit.lean` | `#print axioms` of the theorems named in MANIFEST.json |

## Trusted base

* Lean's kernel. No `sorry`, no `admit`, no `native_decide`/`bv_decide`, no axioms of our own. Every theorem depends at most on `propext`, `Classical.choice`, `Quot.sound`.
* The faithfulness of the model to the Python text, argued by the comments on each definition, and probed by the seeded-bug log in `seeded/LOG.jsonl`.
* Limits of that log:
  * `theorems_failed` lists what the build reported. A module that imports a failing one is not built, so later theorems were not tried.
  * `property_theorems_no_longer_proved` is computed from the dependencies of each theorem on a failing one. It shows that the proof as written breaks, not that the statement is false of the edited program.
  * `claim_broken` was in part filled in afterwards. Where the property number written down with the edit did not match a theorem that failed, it was replaced by the properties of the theorems that did. Those lines carry `claim_as_first_noted` and `claim_source`. Edits made by a program had no prediction; they carry `claim_source` only.
  * Most replaced numbers look like misnumbering. For edits noted under C133 (heating loads ignored), C134 and C135 (first year only; warmer ground), C139 (nominal load; relative tolerance) and C152 (spacing), the number was probably right and a helper failed first. Whether those property theorems themselves reject these edits was not settled.
* **Numbers.** Python `int` is `ℤ`. Python `float` is an element of an arbitrary linearly ordered field `K` (with a floor function where `floor`/`ceil` are used), or `ℝ` where `sqrt`, `log`, `exp`, `cos` occur. So rounding, overflow, infinities and, except for temperatures (C40, C43, C90, C92, C129), NaN are *not* modelled; the theorems are about the exact-arithmetic reading of the code. The exceptions are C117 to C124, C126, C127 and C146 to C148, about the candidate generators (C117 to C122), the hours of an hourly simulation (C123), the monthly loads (C124), the hybrid load (C126), the temperatures and their excess (C127), the ground response (C146), the simulation of a new exchanger (C147) and the search (C148) with every operation rounded (`Model/Rounding`: an arbitrary monotone rounding accurate to 53 bits; `double` is round to nearest even with unbounded exponents). The search routines only compare numbers and look at signs, so those results do not depend on rounding (they hold for any excess function into an ordered field, in particular one that includes rounding); the excess is never NaN (C129).
* **Exceptions** are values: a function that can raise is modelled in `Except PyErr`, and every raising branch (explicit `raise`, `assert`, `IndexError`, `KeyError`, `ZeroDivisionError`, `UnboundLocalError`) is kept. Messages are dropped; only the exception class is kept. Warnings are modelled where a property is about them.
* **`while` loops** are modelled by recursion on explicit fuel with fuel exhaustion a distinguished outcome, and termination (fuel is never exhausted) is itself proved, or by well-founded recursion.

### What is modelled

| source file | model | what is left out |
|---|---|---|
| `coordinates.py` | `Model/Coordinates`, `Model/Plots` | looks of the plot (see C112) |
| `domains.py`, `feature_recognition.py` | `Model/Domains`, `Model/RoundedDomains`, `Model/FeatureRecognition` | `cv2.pointPolygonTest` is an arbitrary classifier |
| `utilities.py` | `Model/Utilities`, `Model/Files`, `Model/Ticks` | rights, full disks and other processes |
| `search_routines.py` | `Model/SearchRoutines` (with an arbitrary simulation), `Model/WholeSearch` (with real exchangers), `Model/FlowRates`, `Model/Export` | printing |
| `design.py`, `media.py` | `Model/Design` | the `hourly` warning; the two constraints that are never read |
| `ground_heat_exchangers.py` | `Model/GroundHeatExchangers` (with an arbitrary thermal model), `Model/WholeGhe` (with the modelled one) | nothing (`Model/Report` and `Model/Texts` have the text of `__repr__`; formatting of numbers is a parameter) |
| `gfunction.py` | `Model/GFunction`, `Model/Network`, `Model/Plots` | looks of the plots, file reading |
| `ground_loads.py` | `Model/GroundLoads`, `Model/Interp`, `Model/PeakTable`, `Model/Plots` | looks of the plots |
| `radial_numerical_borehole.py` | `Model/Radial` | nothing but printing |
| `equivalance.py`, `borehole_heat_exchangers.py`, `media.py` of the tool | `Model/Equivalence`, `Model/Pipes`, `Model/Texts` | resistances of `pygfunction` and its texts of boreholes and fluids (parameters) |

### External code and how it enters

| external code | in the model |
|---|---|
| `scipy.optimize.brentq` | `Finder`: an arbitrary interaction that asks for values of the objective and returns or raises.  `Inside lo hi` (it asks and returns only inside its bracket) is a stated hypothesis where it is needed |
| LAPACK `dgtsv` | an arbitrary function `Solver`.  Stated hypotheses, from weak to strong: `SizedSolver` (one number per equation; all that termination, sample times and simulations need), `AccurateFor` (accurate enough for the tube, C131; what peak durations and making an exchanger need), `ExactSolver` (returns the solution of the tridiagonal system when there is exactly one; C72, C103).  How accurate the compiled `dgtsv` is, is not proved: elimination without pivoting on a diagonally dominant matrix has `ε` of a few units of roundoff, which for ordinary boreholes is about what `AccurateFor` asks |
| `scipy.interpolate.interp1d`, linear | modelled: sorting, length check, bounds check, segment choice |
| `interp1d` quadratic/cubic, `lagrange` | arbitrary function `spl` of the nodes; where exactness at the nodes is needed the hypothesis is `Reproduces`; bounds and argument checks are modelled |
| `pygfunction` g-functions | arbitrary function `gf H rb D`, may raise; in C101, C102 an arbitrary function of the question asked |
| `pygfunction` convection coefficients and effective borehole resistances | the functions of `Ext`, arbitrary |
| `pygfunction` conduction resistance of a pipe | its formula `log(r_out/r_in)/(2πk)` |
| `cv2.pointPolygonTest` | arbitrary classifier into {-1, 0, 1} |
| `'{}'.format`, `float(...)` of database keys | arbitrary `fmt`, `toFloat`; a key is the list of its `_`-separated fields; round trip `toFloat (fmt x) = x` is a stated hypothesis |
| `calendar.monthrange`, `round`, `int`, `sorted`, dictionaries | modelled; stable sorting is `List.insertionSort` (it computes in the kernel) |

### Choices worth knowing

* Division of Python floats raises `ZeroDivisionError`; division of numpy floats does not.  `solve_root` is called with both kinds of objective; `0/0` of numpy floats is `nan` and `int(nan)` raises `ValueError`, hence two models of the sign (`signDiv`, `signNp`).
* `int(n_months / 12 * 8760)` is the truncation of the exact product in the exact model; C123 shows that double precision gives the same.
* `sum` of floats adds from the left (Python before 3.12) in the rounded model of `Loads`; the order in which `numpy` adds up a dot product is left open (`DotLike`; in C127 `Summed`: any order, products rounded or fused).
* `ground_loads.py` has two calendars: `calendar.monthrange` (leap years) for splitting hourly loads and a fixed 365-day table for the hybrid sequence.  Both are modelled as they are.
* The search routines take the simulation as an arbitrary function of field and height that may raise.  That a simulation is such a function, whatever was done before to the object, is not an assumption: C89 proves it of the whole exchanger.
* The time since an earlier load change can be negative in the hybrid load.  The logarithm is then `nan`, the interpolation lets it pass and so does the dot product: a temperature is `Num K = Option K`, `none` being `nan` (`Model/Nan`).  `max` and `min` compare from the left, keeping the first: they skip a `nan` unless it comes first; `Model/Nan` follows that comparison by comparison.  A time difference of zero is `-inf` and raises `ValueError`.
* The loop of the short-time model is bounded by fuel; C73 gives a sufficient amount, and the theorems about the whole object ask for that much.

### What is not modelled

* overflow, underflow, NaN other than in temperatures; floating-point rounding except in the candidate generators, the hours simulated, the monthly loads, the hybrid load, the ground response and its superposition, a new exchanger's simulation with these and the search that uses it (C117 to C124, C126, C127, C146, C147, C148): the interpolation between heights, the borehole model and the root finders compute exactly;
* sharing of objects other than `Borehole` between designs (`compute_equivalent` of a single U-tube returns the object itself, so its height follows too; every simulation makes it anew) and a caller changing the geometry of pipes in place; changes of loads, simulation parameters and media in place are modelled (C141, C142);
* the numerical contents of the external libraries in the table;
* of plotting, everything but what is drawn, the axis labels and the files; what `json` and `pickle` write (arbitrary encoders, with the round trip a stated hypothesis); of printing, how numbers, exchangers and pandas tables are formatted;
* the example scripts, except `examples/Design/FromFile/design_from_input.py` (C130), `examples/Design/find_*.py` (C143, C153; the objects passed to `Design` are given, except the constraints; their numbers are in `Model/Office`, C154), the two of `examples/gFunctions` (C144), `examples/Design/FromFile/create_*_input_file.py` (C145; the objects passed to `Design` are given), the six of `examples/BHE` (C149, C150) and `examples/Design/FromFile/design_from_ornl_json_input.py` (C151; a parameter that is not a number raises earlier than in the code); only the construction of media, loads and parameters in `create_*_input_file.py` is then left.

## Findings

Places where the code does not do what its documentation, its names or its user would suggest.  Each is a theorem about the model (a negation with a general or concrete witness), next to the strongest positive statement.

| id | finding |
|---|---|
| C04 | `U_shape` can never return a U |
| C03 | `C_shape` contains a borehole twice when the top row reaches the right column |
| C08 | the largest near-square field is one spacing longer than the land |
| C12 | `bi_rectangular` applies the two maximum spacings to longer and shorter side, not to x and y |
| C15, C18 | zoned domains are partly untransposed: fields outside the land when it is taller than wide |
| C20 | cutting out a building can leave an empty field, which crashes the search |
| C21 | `reorder_domain` drops fields of equal size |
| C28, C32, C44 | an excess temperature of exactly zero raises `ZeroDivisionError` |
| C31 | ties in the excess temperature can hide the smallest feasible field |
| C35 | a field that meets the limits only at the minimum height is returned as a design |
| C36 | an oversized shared first field makes the nested search fail although a feasible field exists |
| C42 | hourly simulation fails unless the period is a whole number of years |
| C44 | an oversized exchanger is left at the maximum height with the warning "not deep enough"; the root found is thrown away |
| C46 | the combination of short and long time steps raises `IndexError` on a tie |
| C47, C80, C91 | the single-curve guard never rejects; requests just below the range are rejected; results outside the range depend on history |
| C55, C57, C64 | peaks in the first hour of a day are put on the day before; the two-day window is the day of the peak and the one after; hours can go backwards |
| C107 | a spacing range no whole number of boreholes fits raises `IndexError` in `find_design` |
| C108 | the kind named in a later call of `g_function_interpolation` is silently ignored: the table of the first call is used |
| C59 | a 0.1 kW tolerance can make the peak duration fail |
| C62 | energy is lost when a peak is not shown |
| C67 | the hourly representation shifts peaks by one day, loses those of the last day of a month and lengthens the year |
| C70, C82 | the pipe cells of the radial grid overrun the grout; pipe and grout layers do not have the resistances they are built from |
| C76 | the printed Reynolds number is computed with the wrong function |
| C83, C84 | parallel flow is halved whatever the number of U-tubes; a new flow rate does not change the convection of a U-tube |
| C98 | exporting after setting a height exports the new length with the tube and the short-time values of the old one |
| C98, C100 | exporting and printing raise `ValueError` when fewer than 30 or 50 short-time values are kept; the exchanger that `find_design` leaves is printed without temperatures |
| C110 | after `update_thermal_resistance(m)` the text shows the new flow through the borehole beside the old flow through the pipe and its Reynolds number; `End month` is printed without a blank before its unit |
| C111 | `js_dump` and `create_input_file` add an extension that `js_load` and `read_input_file` do not: the same name cannot be read back; a dump that fails, or is killed (C125), destroys what the file held; `create_if_not` accepts a file in place of the directory |
| C112 | `visualize_domain` leaves older pictures with higher numbers in the folder and stops at an empty field; `visualize_g_functions` gives heights with the same whole metres one name |
| C113 | `visualize_fluid_simulation_results` shows a later month, or raises `IndexError`, if a month before the one asked for had nothing to simulate; its names for rejection and extraction are swapped; `visualize_hourly_heat_extraction` always raises `AttributeError` |
| C114 | the plot locator extends the lowest decade upwards instead of downwards: no minor ticks below it |
| C85, C86 | the convective target of the equivalent tube is off by the diameter in metres; without a sign change the far end of the bracket is taken |
| C116 | one failed interpolation (a curve shorter than the times) makes every later request fail with another exception (`KeyError`); one missing burial depth makes all of them missing, silently |
| C119 | rounding errors drop a candidate on square lands, repeat nested domains and let the spacing fall below the minimum: the number of rows is recomputed from the spacing that was computed from it |
| C121 | in zoned domains the comparison of two spacings is often a tie in exact arithmetic; rounding errors decide it, so the interior may grow in the other direction. A land one bit longer than the maximum spacing raises `ValueError` |
| C124 | a constant load: the average of a month is computed a few bits too low, so that there seems to be a peak; for 6.1 kW `Loads` raises `ValueError`, for 0.9 kW every month has a peak of 48 hours (instead of 1e-6) |
| C128 | designs that share a `Borehole` object change each other's results: a later design gives every earlier exchanger its own maximum height, with the earlier temperatures kept |
| C129 | a peak first reached in the first hour of a month after the first (for a steady load: every month's) is ignored by `simulate`, `size` and `find_design` with the hybrid method: its temperatures are `nan`, which `max` and `min` skip |
| C130 | `design_from_ornl_json_input.py` passes a spacing but no length to a near-square design: it always raises `AssertionError` (C151; `create_near_square_input_file.py` moreover passes a keyword that `Design` does not have) |
| C137 | limits can be so loose that the search raises `ValueError` although every candidate meets them |
| C138 | small enough loads make sizing choose the *maximum* height, with the warning that it is not deep enough |
| C139 | peak durations depend on the unit: the tolerance of 0.1 kW is absolute, so the same load profile may be refused when it is small and accepted when it is large |
| C141 | an exchanger keeps references to the caller's loads and `SimulationParameters` but computes the hybrid load once: after a change in place the hourly method and `size()` follow it, the hybrid method silently keeps the old loads and months |
| C142 | an exchanger keeps references to the caller's media: changes in place are followed, but the effective borehole resistance keeps the conductivities of soil and grout it was made with (while the ground response uses the new ones), and the mass flow keeps the old density |
| C145 | `create_near_square_input_file.py` and `create_rectangular_input_file.py` pass `unconstrained=` to `GeometricConstraints`, which has no such parameter: both scripts end in `TypeError` before anything is written |
| C150 | `SingleUTube.py`, `DoubleUTube.py` and `Coaxial.py` print `R_fp`, the sum of convective and pipe resistance, under the label of the convective resistance; `Coaxial.py` prints the Reynolds number of a pipe with the outermost radius instead of that of the annulus |
| C151 | `design_from_ornl_json_input.py` can never succeed (C130), and would ignore `max_EFT`, `min_EFT`, `min_height` and `simulation_period` of the parameter file it reads |
| C153 | `find_bi_zoned_rectangle.py` designs the double U-tube and the coaxial tube with `routine='bi-rectangle'` (lines 187 and 209): only the single U-tube gets a zoned design, and the script compares the results of two routines |
| C104 | nothing keeps a peak of the hybrid load inside its month: one of more than 22 hours on the last day of a shown month ends after the month does, the times go back (`C104_late`), and temperatures are not numbers without an error (C129) |
| C154 | in the building of the shipped examples the peaks of rejection in January and February fall on the last day of the month: a duration of more than a day would carry them beyond the month's end and put the times of the hybrid load out of order.  They stay in order because these peaks are short (`C154_lasting`), which nothing in the code makes sure of |

## Plan per property

The English text of each property is in `properties.jsonl`.

| id | what is modelled | how it is proved |
|---|---|---|
| C01–C06 | `coordinates.py`, point lists built by the same nested loops and appends, including the assertions | characterise membership by unfolding loops to `List.map`/`flatMap`; length by arithmetic; nodup from injectivity of `i ↦ x0+i*Bx` |
| C07 | the `for` loop of `square_and_near_square` | induction over the range |
| C08 | `Design` near-square set-up composed with C07 | floor inequalities |
| C09–C11 | `rectangular` with both loops, generic `K` | loop invariants "all fields so far fit / sizes increase / last size known" |
| C12–C13 | `bi_rectangular`, `bi_rectangle_nested` | same invariants; floor/ceil inequalities; `Props/FieldContents` lists every field of C11–C14 and C16 exactly and the boreholes of a zoned field (C05) |
| C14–C15 | the `while` loop of `zoned_rectangle_domain` with fuel | invariant `n_i ≤ n-2`; the ratio test is rewritten as a cross-multiplied inequality which shows the chosen side still has room; measure `n1+n2-4-(n_i1+n_i2)` |
| C16–C18 | `bi_rectangle_zoned_nested` | index invariant `j+k=i`; containment from C05; a concrete witness for the violated orientation; `Props/ZonedFields`: distinctness and guards for both orientations |
| C19–C20 | `polygonal_land_constraint` over an arbitrary classifier | filter characterisation + C21; concrete witness for the empty field |
| C21 | `reorder_domain` with dictionary semantics | lookup in a list; sortedness of insertion sort; permutation |
| C22–C24 | `verify_excess`, `remove_cutout`, `determine_largest_rectangle` | list induction |
| C25–C29 | `utilities.py` | algebra over an ordered field, list induction |
| C30–C35 | `Bisection1D.search` with an arbitrary excess function and an explicit call log | loop invariant: left excess > 0, right excess ≤ 0, all stored temperatures are excesses, `right-left ≤ 2^(iters left)` |
| C36–C37 | `Bisection2D`, `BisectionZD` | composition of C30–C33; invariant of the early-stopping loop; `Props/SuccessiveOutcomes`: every step of the loop has one of four results |
| C38 | `retrieve_flow`, `BaseGHE.__init__` | field arithmetic |
| C39–C43 | `cost`, `_simulate_detailed`, `simulate` | finite sums; list induction |
| C44–C45 | `solve_root`, `size` with a state carrying the current height; root finder is a parameter returning its probe log | case analysis |
| C46 | `combine_sts_lts` | list induction on sorted lists |
| C47–C51 | `gfunction.py` data handling, interpolation cache as explicit state | induction over request histories, `Real.log` laws |
| C52–C57 | `split_heat_and_cool`, calendar functions, `Loads` | list and arithmetic induction |
| C58–C59 | `simulate_hourly`, `perform_current_month_simulation` with an arbitrary `g` | Abel summation; a concrete witness for the failing tolerance |
| C60–C66 | `peak_hour_range`, `process_monthly_loads` | induction over months; integral of the step function month by month |
| C67–C69 | synthetic load writers, month names | slice-assignment lemmas |
| C70 | cell filling | induction on cells |
| C71–C72 | one implicit step as a linear system of arbitrary size | M-matrix argument (discrete maximum principle), induction over time |
| C73 | the time loop | Archimedean termination, arithmetic |
| C74–C76 | equivalent tubes, pipe placement, Reynolds | real algebra, pairing of opposite legs |
| C77 | constraint checks and dispatch | case analysis on arbitrary strings |
| C78 | the export loops | list induction |
| C79 | `Design` with its candidates and searches | composition of C09–C18 with C30–C37: every candidate is on the land, the search returns a candidate |
| C80–C81 | `g_function_interpolation` on fresh tables; `compute_live_g_function`, `compute_g_functions` | characterisation of the table after any history; that numbers survive being written into the keys of the database and read back is assumed of the numbers used only |
| C82 | resistances of the layers of the grid | telescoping sums of logarithms |
| C83–C84 | flow in the pipes, `update_thermal_resistance` | case analysis on the state before and after |
| C85–C87 | `equivalance.py` with an arbitrary root finder | both `solve_root` calls in closed form, induction over the finder |
| C88 | `computeEquivalent` composed with `mkRadial` | the conditions of C70–C73 and C82 derived from those on the original exchanger |
| C89 | `Model/WholeGhe` and `Model/Report`: exchanger, equivalent tube, short- and long-time response, loads as one mutable object | refinement: simulation and sizing of the object, from any reachable state, do what a fixed function of the height does; induction over operations |
| C90–C91 | the same object | exact condition for the combined response to answer each load step |
| C92 | the same object, all of `simulate` | `Spec/Response.lean` states polyline and superposition without the model; C40 and C46 composed through `prepare_eq` |
| C93–C94 | `Model/WholeSearch`: the search routines with one mutable exchanger, a shared borehole, and construction of each exchanger by the modelled code | simulation relation (`Sim`, `Top`) between this program and the one of `Model/SearchRoutines`, whose results C30–C37 are then read off; no hypothesis on the external code |
| C95–C96 | the constructor of `GHE` end to end (exchanger, equivalent tube, short-time response, one-curve g-function, hybrid load) and the search with it | `Usable` lists what the input must satisfy; `fresh_ok`, `simulate_fresh` compose C57–C66, C82–C92; the outcome table is that of C32 with the excess read off the superposition formula. `exFind` runs the whole search on a concrete problem (long-time curve constant), ending with the larger of two fields |
| C97 | `compute_g_functions` and `size` on the exchanger left by `find_design` | the three-curve database makes the object `Covered` (C89), at a stored height its curve is the one the search used (C47), so both prepare the same thermal data; the outcome table is that of C44 through the refinement of C89 |
| C98, C100 | `Model/Report`: `oak_ridge_export`, `GHE.__repr__`, on the whole object | `Coherent` (height, tube and short-time values belong together) holds after every simulation that returns; C78 for the selection of indices; `Spec/Report.lean` gives the page literally, with the formatting of numbers and tables as arbitrary functions |
| C99 | the same object | `size_left`: every path on which `size` returns ends with a simulation at the height left |
| C101 | `Model/Network`: `calculate_g_function`, `compute_live_g_function` for one height; the library is an arbitrary function of the question | unfolding, an invariant for the loop over the coordinates; the question is written out literally in `question` |
| C102 | the object of C95, C96 with the modelled `calculate_g_function` | the points of the response are in order of time (C98), so the polyline of C96 between two of them is their segment; `Answers` says what is needed of the library, and C102_answered shows the hypothesis of C95 follows. A field with the repeated borehole of C03 is not covered by `Answers` |
| C103 | the radial simulation of C72 | discrete maximum principle for the implicit scheme: increments of one step are increments of the scheme started from the first increment, largest at the core, so they shrink in time (`Lemmas/HeatConcave`); interpolation between samples costs at most one sample, the 1/30 h |
| C104 | `Model/GroundLoads`, the object of C95 | by C103 two days of nominal load rise no faster than in proportion to time, which bounds the peak's duration from below (`Lemmas/DurationFloor`); the entries of a month are then written out case by case. `Spec/Peaks` states the condition on the loads alone.  Peaks on a first or last day (`Spec/Lasting`, `Props/PeaksShort`): by C131 the effect of an hour is at least a third of that of any later one, which bounds the time at which the nominal load reaches the temperature of the real ones from above (`Lemmas/DurationCeil`); `Props/GapsExact` has the condition on days and durations, `Props/GapsIff` shows it is exact |
| C105 | the object of C95, C96; `Sensible`, `HeightFine`, `TextFine`, `Converts` in `Props/Inputs` speak of arguments and libraries only | the radii of the equivalent tube are those of C74, its conductivities positive by C87, so its tube is sound; the curve comes from C102; the gap condition of C96 from C104 |
| C106 | `design` in `Model/WholeSearch`: constructor and `find_design` of design.py on the objects of C93 | by C93 the run is one of the abstract search of C79, whose answer is the verdict of C94 |
| C107 | as C106; `Designable` asks for `Sensible` etc. of C105 for the candidates | every candidate is usable by C105, so the outcome tables of C32 and C36 apply; the candidates come from C07, C11 and C13. `Props/DesignExample` shows a problem whose design is returned. Bi-zoned (`Props/ZonedDesign`) from C16, C17 and C37; its table has a case for exceptions of sizing, which C115 bounds |
| C108 | as C47; the kind is any string, the history any list of (ratio, kind) pairs | `kindUsed` is the specification of the kind; the table after a history is computed by induction (`Props/GKinds`): refused requests leave it empty, the first other one settles it |
| C109 | `Model/PeakTable`: the loop, the two-level dictionary and the frame made of it (index, columns, rows) | the dictionary after `n` months is computed by induction; an entry is looked up by its labels (`Frame.entry`) and its value compared with the hourly loads by C54, C55 |
| C110 | `Model/Texts`: `__repr__` of the media, the exchangers, the parameters and the hybrid load, and the whole `GHE.__repr__`; the text of a number, a list and an object of another package is an arbitrary function, and whether a number is of type `float` an arbitrary answer | `Spec/Texts.lean` has the pages literally; the state after any updates is computed by induction, then the texts are compared line by line; C100 and C109 for the whole text |
| C111 | `Model/Files`: a disk (directories, files with contents), opening, writing, reading, `makedirs`, and `oak_ridge_export` as a change of exchanger and disk | one lemma per call, then induction over histories; directories by induction along the path; C98 for the export |
| C112 | `Model/Plots`: a figure is the list of what is drawn, with axis labels; what is written for a figure is a parameter; sizes, fonts, colours, grids and limits are left out | unpacking and zipping are inverse; induction over the domain with the disk as state; digits of a number determine it (`zfill3_inj`) |
| C113 | same, with the loads of `mkLoads` | the list of histories as the filtered months (induction over the months); C58's lemmas on windows for the months without simulation |
| C114 | `Model/Ticks`: the locator over any ordered field with floor; `np.arange` is exact | the number of steps of `arange` is the number of parts; the loop over indices as a zip of neighbours |
| C115 | nothing new: the composition of C97, C102, C105 and C107 | sensible arguments make the covered exchanger `Ready` at every fine height (C90), so the objective of sizing is total on the heights asked for; the outcome is that of the root finder run on this objective (induction on its questions). Examples in `Props/WorkflowExample` |
| C116 | nothing new: `request` without the assumption `Valid` | invariant over the history: after a failed build the table has an entry for the g-functions and none for the radii; two runs in step for the burial depths and the cut curves. Examples in `Props/GDamaged` |
| C117 | `Model/RoundedDomains`: the candidate generators and `Design.__init__` with every operation rounded by an arbitrary `Rounding`; with `Rounding.exact` they are the definitions of the exact model (`C117_exact`) | the fields are computed as a list of shapes (loop invariant); counts are monotone because the rounding is; bounds from the relative error of at most five operations |
| C118 | same | a quotient clear of whole numbers gives the same count; the shapes are then the same |
| C119 | same, with `double` on rationals | evaluation in the kernel of the concrete inputs; these are existence statements |
| C120 | `Model/RoundedDomains` with `Rounding.double` | `L / n * n / n` rounds back to `L / n` (`Lemmas/RoundTrip`), so the spacings the loop recomputes are those it started from; two different ratios of counts differ by more than the rounding errors; the loop then follows `RoundedStep`. Coordinates by accumulated relative error (`Rel`) |
| C121 | same, on rationals | evaluation in the kernel; existence statements |
| C122 | same | the walk of C16 with the rounded generators inside; the start-up shapes as rounded images of the same integer points |
| C123 | `Model/RoundedSimulation`: the loads and hours `simulate` asks for, rounded | `m/12` and the product are within half a unit of the last place of a multiple that is representable (`double_months`) |
| C124 | `Model/RoundedLoads`: `Loads` with every operation rounded; with `Rounding.exact` it is the exact model (`C124_exact`) | the invariants of C53 to C58 with rounded sums; error of a sum by induction; for a flat window the 48-hour histories have a closed form and are monotone; the two loads by evaluation in the kernel |
| C125 | `Model/Crash`: the file functions once more, in a monad that also collects the disks left if the process is killed: opening and making a directory are atomic, of a text any beginning may be written | not killed they are the functions of `Model/Files` (`C125_finished`); what is left by induction over the steps; histories by induction |
| C126 | `Model/RoundedHybrid`: `HybridLoad` with every operation rounded; with `Rounding.exact` it is the exact model (`C126_exact`) | closed form of the entries as for C61; the two closed forms compared entry by entry (the decisions agree because halving a duration is exact); the integral over a month depends on the times only through the lengths of the peaks |
| C127 | `Model/RoundedGhe`: `_simulate_detailed`, `simulate`, `cost` and the objective of `size` with every operation rounded; with `Rounding.exact` it is the exact model (`C127_exact`) | rounding keeps signs; the error of a sum of products in any order by induction over how it was added up; roundings counted through the formula (`Off k`: `k` roundings of something of a given size), at most `i + 8` of them |
| C128 | `Model/Session`: scripts of designs, g-function computations, simulations, sizings and height assignments; borehole objects at addresses, each exchanger seen with the height its borehole has at that moment; `find_design` and the methods are those of `Model/WholeSearch` | non-interference by a relation between worlds kept step by step; an invariant of every world a script reaches (`Tracked`), which rests on what each search leaves whether it returns or raises (`keeps_findDesign`); C94 for the height left |
| C129 | `Model/Nan` (`Num`, comparisons and extremes with `nan`), used by `simulateDetailed`, `simulate`, the report and the rounded model | the `nan` entries are those with a later earlier time (C40, `hybrid_returned`); position of a day-0 peak from the month blocks of C61 to C64; `C129_hybrid` from the superposition of a fresh exchanger (C96) for hours in any order |
| C130 | `Model/Script`: the script as a change of the disk, on top of `Model/WholeSearch` and `Model/Files` | C111 for the files; C93, C115 for the field and the height; C98 for the export, at the height left by sizing (`ready_between`) |
| C131 | `Model/Radial` with a solver that makes errors (`NearSolver ε`) | the error of a step is a residual of the heat balance; comparison with the steady solution whose sources are the residual bounds gives a bound that does not grow with the number of steps (`Lemmas/HeatError`); the hours are interpolated between close samples (`Lemmas/InterpClose`); C103 has room for the error; `Props/HoursSlow` compares the rises of the hours with each other |
| C132 | all of `design`, `findAndSize` and `designToFile` for the given problem and for `Warm.problem c` (`Spec/Warm.lean`: ground and limits raised by `c`) | every method is shown to commute with the shift (`Lemmas/Commute`: a method does on the changed object what it does on the other); root finders see the same values, comparisons the same order; nothing is assumed of the problem but that g-functions do not depend on the ground temperature, which is proved of `calculate_g_function` for a `pygfunction` that does not look for it |
| C133 | the same for `Mirror.problem a` (`Spec/Mirror.lean`: loads of the other sign, temperatures `a - T`, limits exchanged) | as C132, with `Lemmas/Alike` shared by both (two problems whose exchangers correspond take the same course); the hybrid load with the two kinds exchanged is followed through splitting, monthly loads, rates, order of peaks (`Lemmas/MirrorLoads`), where it matters that a year of the right length raises nothing but `ValueError`, so that it does not matter which kind is processed first |
| C134 | `Model/WholeGhe.simulate` ("hourly") of newly made exchangers of two problems that differ in their loads; `findDesign` of both | C96 gives the temperatures as a sum over the history; summation by parts shows that it rises with every load if the response does not fall (`Lemmas/Superposition`); a year of loads repeated is the year delayed plus the year itself; the search keeps a bracket, so it finds the first graded candidate within the limits |
| C135 | the same for two problems that differ in their last month | the sum for an hour uses no later hour, and the response at an hour is the value of one piecewise linear curve whatever the length of the simulation |
| C136 | hourly simulations of newly made exchangers of problems that differ in their loads; `findDesign` of both | C96 gives the temperatures as a sum that is linear in the loads, with the same response for all loads; extremes of a scaled list |
| C137 | `fresh`, `simulate` and `findDesign` of problems that differ in their limits | the limits are only stored by the constructor and only read by `cost`; the bracket kept by the search; the two bounds of the search are below zero for limits beyond all extremes |
| C138 | `size` of the whole object (C89) with any root finder that keeps a bracket (`Spec/Sizing.lean`) | the objective as a function of the height; the sign change brackets the height left; deeper-is-better orders the brackets of two problems; scaled loads scale the differences from the ground temperature (`Lemmas/Scaling.lean`); concrete case: bisection on three single U-tubes with a level g-function |
| C139 | the load processing of C54–C66, the exchanger made from a problem (C95) and both methods | a positive factor goes through every step of the peak finder (slices, maxima, two-day windows, the simulated response, the interpolation, `Lemmas/ScaleLoads.lean`), so the hours agree and the loads are multiplied; temperatures by linearity of the convolution (`Lemmas/Scaling.lean`); designs and heights by the comparisons of C134 and C138; failure by C59 for small and C58 for large factors, finitely many loads having a least gap |
| C140 | hourly runs of exchangers made from a problem (C95, C96), the search of C31–C36 and sizing of C138 | an interpolating polyline through points that are close is close (`Lemmas/Close.lean`), the convolution is bounded by the variation of the load; the solver's samples by C131; the search makes the same comparisons if the margins exceed the error; heights by C138_least on both objects and the steepness |
| C141 | an exchanger whose surroundings (`Env`) have a shared part (`Model/Shared.lean`) that events change between operations | the state invariant `Used` of C102 does not mention the shared part, so it survives changes; simulations and sizing refine a function of height and current contents (`simulate_refines`, `size_refines`); construction for changed contents by unfolding `fresh`; multiplied loads by C139 |
| C142 | the same with an event that fills the media objects with other contents (`Model/Refill.lean`; geometry left alone; of a coaxial exchanger also the two conductivities and the roughness, which it stores twice) | invariant `Ready`: recomputing the resistances of the stored exchanger gives the one made anew at some height in range; every simulation starts by recomputing them, so it acts as from a settled state (`simulate_settle`, `size_settle`), for which `simulate_refines` and `size_refines` apply; what is made anew by unfolding the constructors |
| C143 | `Model/Compare`: the scripts `find_*.py`, a list of designs found, sized and reported on one borehole object, stopped by the first exception | induction over the list with the height the borehole is left with; C94: a design has the same outcome whichever height the borehole starts with; the report by C93 (what `find_design` leaves), the coordinates of the database and the bounds that sizing keeps |
| C144 | `Model/Library`: a `GHE` made from an imported or computed database; the two scripts in `examples/gFunctions` | `covered` puts it in the situation of C89, so C90 gives the simulations and C44/C89 the outcomes of sizing; the database of several heights from C81, its stored heights from C47, so both exchangers prepare the same response |
| C145 | `Model/Creation`: keyword arguments of `GeometricConstraints`; the loop of making and writing designs | induction over the designs with the disk as state; C111 for what survives later file operations; C130 for the script that reads a file |
| C146 | `Model/RoundedResponse`: radius correction, logarithm of the time and `interp1d` with every operation rounded; `np.log` any function of bounded relative error | the calculus of C127 (`Off`: so many roundings of something of a size) for one segment; interpolation has no slope greater than its segments (`interpNodes_slope`); C127 with the computed responses, then linearity of the superposition |
| C147 | `Model/RoundedWhole`: `simulate` and the objective of a new exchanger with the rounded response of C146, the rounded loads of C123 and the rounded superposition of C127; borehole exchanger, equivalent tube, short time-step response and choice of the g-function are those of exact arithmetic | without rounding it is the model of the other claims (`C147_exact`); the table of the exact response has bounds (`C147_bounds`); C146 for its responses and C96 for the exact temperatures; the extremes and the verdict follow from the error of each temperature |
| C148 | `Model/RoundedSearch`: the search of C30 to C36 with the excess of a field and height computed as in C147, then rounded | a relational logic on the search (`Par` in `Lemmas/SearchOrder`): two runs keep books with the same keys and excesses in the same order and take the same branches (`C148_order`); C147 bounds each excess, so a gap larger than the errors keeps signs and order; the field returned has a computed excess that is not positive (C30, C36) |
| C149 | `Model/TubeScripts`: the two scripts in `examples/BHE/EquivalentPipes`, with the numbers at their heads as parameters; state: lines printed and pictures | C74 for geometry and flow, the closed forms of the radii, C86/C87 for the conductivities and the resistance; the script is run symbolically |
| C150 | `Model/TubeScripts`: the four scripts in `examples/BHE/BoreholeResistance`; the workbook is given | C76 for the Reynolds numbers; induction over the flow rates for the tables; case analysis over the sheets for the pictures |
| C151 | `Model/Ornl`: the script on a disk with the parameter file and the loads; further keyword arguments of `GeometricConstraints` are a parameter | the look-ups one by one; C77 for the refusal; an invariant (the single U-tube keeps its record) through simulation, sizing and export; C07 for the candidates |
| C152 | `Model/WholeSearch`, `Model/Script`, `Model/Domains`; a motion is any map of the plane that keeps distances | two runs side by side (`Lemmas/Moved`): moving the locations kept in the g-function object commutes with every step of the search; the transpose flag of the domain generators carried through their loops (`Lemmas/Turned`) |
| C153 | `Model/FindScripts`: constraints, routines, land and building of the four scripts; rendering of a figure arbitrary; a file as in `Model/Files` | the script refines the one of C143 (`Compare.compare`) block by block; what `GFunction.bore_locations` holds after the search is the field found (C93); the picture is C112's; the candidates are those of C12, C13, C17 |
| C154 | `Model/Office`: the numbers of the scripts; `Model/OfficeLoads`, generated: the 8760 decimal numbers of the csv file times `10^13`, positive and negative ones apart (not the doubles nearest to them) | the kernel evaluates `peakOk` on the table (where each month peaks, and that no load of the two days looked at exceeds the peak by less than 100 W); `ClearPeaks`, `PipesFit`, `HeightFine` (bounds for `exp (-8.5)` to 9 digits) and `PeriodFine` follow; `lastOk` likewise gives `PeaksLast` (`Lemmas/OfficeLast`), for the hybrid method; then C58, C75, C95, C105, C107, and C115 for sizing (`Props/OfficeSize`: between 60 and 135 m a height is fine unless the long-time curve begins within a picosecond of a sample) |

Properties that are only partly provable keep the suffix `_partial` on the theorem and a note in MANIFEST.json; properties that the code violates are proved as negations with a concrete witness next to the strongest positive statement.

# Formal model of code-lab-org/tatc in Lean 4

## What is here

| path | content |
|---|---|
| `properties.jsonl` | the English properties (C01, C02, ...) |
| `lean/Verif/Spec/*.lean` | small specifications, independent of the model |
| `lean/Verif/Model/*.lean` | the model: one Lean definition per modelled function, each with the file and lines of `/repo` it models |
| `lean/Verif/Lemmas/*.lean` | helper lemmas |
| `lean/Verif/Props/*.lean` | the property theorems, each followed by an `example` that meets its hypotheses, and the refutations |
| `MANIFEST.json` | property -> theorems |
| `seeded/LOG.jsonl` | wrong programs tried against the theorems |

## Method

The model is shallow: total Lean functions that follow the Python functions
branch by branch, exceptions as values (`Except`), missing values (NaT/NaN) as
`Option`.  Where the Python code calls a library whose result is not determined
by its documentation (the tie order of `sort_values`, the propagator, geodesy,
geometry engines) the model takes that library as a parameter with the
documented contract as its only hypothesis, and the theorems hold for every
such parameter.

Number types:

* times and durations: `Int` ticks (pandas nanoseconds, or microseconds where the
  code goes through `datetime.timedelta`), exactly as in the code;
* means of durations: `ℚ` followed by the code's rounding to microseconds;
* angles, lengths, positions: `ℝ`.  **Floating-point rounding is not modelled**:
  the theorems speak about the formulas the code evaluates, in exact arithmetic.
  Every property about angles and lengths is to be read with this proviso,
  except those proved in `Props/Rounded*.lean` (C140 to C142, C145 to C148, C151 to
  C153, C158, C159, C168, part of C25), for which `Model/Ieee*.lean` model double precision
  arithmetic (rounding to nearest, ties to even; no overflow).
* text (TLE lines, names): `String`/`List Char`.

When the code violates a property the negation is proved with a concrete witness
(theorem suffix `_false`), the strongest true part is proved with the suffix
`_partial`, and the disagreement is listed below.

## Trusted base

* Lean 4.33.0's kernel, Mathlib as installed.
* Axioms: only `propext`, `Classical.choice`, `Quot.sound`
  (checked with `#print axioms`, see the last section).
* The reading of the Python code: the correspondence between `/repo` and
  `Verif/Model` was made by hand, by reading; it is not checked by machine.
* The contracts of numpy, pandas, geopandas, shapely, skyfield, sgp4, pydantic
  used in the model (listed in `Verif/Model/Pandas.lean` and beside each model
  definition).

## Plan, property by property

| id | modelled | proof |
|---|---|---|
| C01-C05 | `aggregate_observations`: sort, group by point, shift/cummax/cumsum labels, dissolve, access/revisit columns; sort is a parameter (any sorted permutation) | induction over the sorted list with the running maximum as invariant; uniqueness of components gives order independence and idempotence |
| C06 | `reduce_observations`: per-point dissolve with the two aggregation lambdas, microsecond rounding | list sums over `ℚ` |
| C07 | `grid_observations`, `grid_latencies` with pandas index labels | refutation by witness; partial theorem for what is computed |
| C08, C09 | `_get_visible_interval_series` with the event list as parameter | induction over alternating histories; invariant for arbitrary lists |
| C10, C11 | `collect_observations`, `collect_multi_observations` over visible intervals | list reasoning, integer rounding |
| C12-C15 | `compute_latencies` (as-of join by satellite), `reduce_latencies` | extremal characterisation of the join |
| C16, C17, C26 | `get_closest_tle_index`, `partition_by_tle_index`, event concatenation | sorted-list reasoning; refutation of C17 |
| C18-C21 | TLE validators, checksum, regular expressions by columns, accessors | list-of-character reasoning, modulo 10 arithmetic |
| C22, C23 | the cached fields as a state machine; histories of calls | invariant over histories; refutations for mutation |
| C24, C25 | repeat-cycle folding of times and events | integer division |
| C27 | `zero_pad`, member names | decimal digit lemmas |
| C28-C30, C37 | Walker constellation, SOC constellation | arithmetic; ceil; refutation of "every plane" |
| C31-C34 | derived orbits | modular arithmetic on reals; trigonometric bounds |
| C35, C36 | MOG: Kepler iteration as a while loop with fuel-free termination statement; vectors | contraction; trigonometric identities |
| C38-C44 | generation of points and cells | floor/round arithmetic, monotonicity of arcsin, irrationality not needed |
| C45-C51 | conversions in `utils.py` | trigonometry over `ℝ` |
| C52-C56 | polygon functions on lists of coordinates | list reasoning |
| C57-C61 | radio occultation | run decomposition by induction; inner product algebra; derivative |
| C62-C64 | dilution of precision | matrix algebra, Sherman-Morrison |
| C65-C68 | instruments and projected rays | decision tables, algebra |
| C69-C72 | tracks, projection choice, configuration | list reasoning, decision logic |
| C73 | `collect_downlinks` over the stations | list reasoning |
| C74 | MOG members: distance from the reference orbit | vectors, trigonometric bounds |
| C75 | coverage of a mask by generated cells | floor/round arithmetic |
| C76 | sun-synchronous inclination and node from the crossing time | algebra; bound on the precession rate |
| C77, C78 | radio occultation: rising or setting, yaw and elevation angles | sign of the change along the series; inner products |
| C79, C80 | split polygons: latitude at the antimeridian; ranges of the result | interpolation; composition of C52-C56 |
| C81-C84 | instruments: units, order and orientation of pixels and rays, roll and pitch, ellipses | vectors and trigonometry |
| C85, C86 | ground tracks and pixels, culling and clipping by masks | closed form of the records; witnesses with intervals as geometries |
| C87-C89 | aggregation of ground tracks by orbit and period of observation | running sums, integer division, grouping |
| C90, C91 | `to_tle` of every orbit class over a contract for the export of elements; period and altitude of both sides | composition with C18-C21; Bernstein bounds for the mean anomaly series; bounds on the period |
| C92 | semimajor axis, eccentricity and perigee of Molniya and Tundra orbits | algebra; numeric bounds by cubes |
| C93 | the search of `get_repeat_cycle` | filtered sorted lists |
| C94 | `swath_width_to_field_of_view` against the plane of the satellite and the ground points | law of sines; numeric bounds for the refutation |
| C95 | `buffer_target` in the projected plane against central angles on the sphere | law of sines along a meridian; counterexamples at high latitude and for descending times |
| C96 | `aggregate_observations` against the set of ticks at which an observation is under way | disjoint intervals; induction over groups |
| C97 | `aggregate_observations` of two frames | a gap of the larger frame lies in a gap of the smaller; counterexamples |
| C98 | the columns of every frame as a function of the columns and the number of rows of its arguments (`Model/Frames.lean`) | case analysis on emptiness |
| C99 | `get_orbit_track` (`Model/Propagate.lean`), the propagator any function | induction over lists; C16, C24 |
| C100 | the same, with Earth-fixed axes turned about a fixed axis | composition of rotations; a sun-synchronous counterexample |
| C101 | `get_observation_events` and `get_orbit_track` with the same configuration | C100; contract of `find_events` |
| C102 | `collect_multi_observations` and `aggregate_observations` over the visible intervals of many satellites | C08, C11, C01 and C96 combined; ticks in view against ticks observed |
| C103 | the anomaly series against `Spec/Kepler.lean` (Kepler's equation, direction from the focus) | eccentric anomaly in closed form; derivative of the mean anomaly; mean value inequality on the remainders |
| C104 | class declarations as tables; reading and writing data by declaration (`Model/Schema.lean`) | written keys are looked up again; discriminators make the choice of class unique |
| C105 | as C104 | case split over declared classes |
| C106 | as C104, default epoch is the import time | default is taken when the key is missing |
| C107 | the ellipsoid as a quadratic form; `surfpt`, `edlimb`, `inelpl` in closed form (`Model/Globe.lean`); lines of sight as a specification (`Spec/Sight.lean`) | roots of the quadratic; intermediate values; tangents of the form |
| C108 | as C107 | the nearer root is the first meeting; a cone that misses |
| C109 | as C107, `edlimb` by contract | the line through a satellite and a point of the ground as a quadratic in its parameter |
| C110 | tests of a period as functions of time, made in its middle (`Model/Collect.lean`) | membership in filtered lists; counterexamples |
| C111 | threshold from the altitude at the start (`Model/Collect.lean`); elevation and angle off nadir of vectors | law of sines as an equivalence of inequalities |
| C112 | limit in ticks; circular orbit and a point that turns (`Spec/Regard.lean`) | bound of an interval on which a cosine stays above a value; numeric bounds of the rate; at other inclinations the triangle inequality of angles between the ways the satellite and the place move (`Props/LongPass.lean`) |
| C113 | points covered by the even-odd rule (`Spec/Region.lean`); contract `Cutter` of splitting with the points covered, met by clipping (`Props/Cutter.lean`) | parity of the sides above a point under shifts and reflections; each step of the splitting, then all together |
| C114 | as C113; `CapOf`: the outline followed once around and closed along the pole | sides above a point, in the drawing and in the map that the code makes; a place between the two when they differ |
| C115 | `ray` of the instrument model; angle between opposite sides | the angle as an arctangent, which grows with the turn |
| C116 | aggregation, reduction and latencies as before, of filtered frames | groups of a filtered frame are the filtered groups |
| C117 | `aggregateObservations` of the rows of several aggregated frames | components of components are components; uniqueness of components |
| C118 | the end-to-end model of C102 over two periods and both | ticks in view of the two periods are disjoint and make up those of both |
| C119 | `bufferFootprint`: the buffer in the plane of EPSG:4087, brought back over poles and the antimeridian | the central angle is at most the distance in the plane (convexity of the cosine of a square root); arcs of parallels |
| C120 | `getSwathWidth`, `getMinElevationAngle` and the `swath_width` column | the law of sines for vectors, so that an angle at the centre and an elevation bound the same places; a satellite one radius up refutes the field of regard beyond 180 degrees |
| C121 | systems, orbits, lists and instruments as objects with references; deepcopy, construction and the generators of members | every object reachable from a new member is new and reached by no other system; induction over changes; a satellite and `generate_walker` refute the rest |
| C122 | data frames as objects: which operations of the analyses make a frame and which change one | a triple that spares the frames that existed, for every program; the answer computed from the values given; `normalize_geometry` refutes it for data frames |
| C123 | `TwoLineElements.get_derived_orbit` on text, with reading and printing of the sgp4 package as a contract | digits that are half a digit apart are equal; epochs are printed to the digit they were read from; list induction for the acceptance of the result; the catalog number zero refutes the identity |
| C124 | `Solar.solarBeta` (`Model/Solar.lean`): cross product and skyfield's half-angle formula | half-angle identities, Cauchy-Schwarz; linearity of the cross product; directions of an orbit from `Spec/Orbit` |
| C125 | `Solar.isSunlit`: skyfield's intersection of a line and a sphere; spec `SunHidden` (`Spec/Shadow`) | quadratic inequality, cases of the discriminant; Gram determinant for the beta angle |
| C126 | `Solar.solarTime`: hour angle plus 12 | fractional parts; with C76 for sun-synchronous orbits |
| C127 | `Dop.dopAt`; spec of least squares in `Spec/Positioning` | normal equations: the misfit is a quadratic with the Gram matrix; diagonal of the inverse as a sum of squares; Cauchy-Schwarz |
| C128 | `Dop.dopAt` | the Gram matrix is conjugated by a rotation, which commutes with inversion; sums of diagonal entries |
| C129 | `Dop.dopAt` | diagonal of an inverse times diagonal of a positive matrix is at least one; sums of squares of directions; arithmetic-harmonic means |
| C130 | `Generation.fibonacciPoints`; spec `centralAngle` (`Spec/Sphere`) | multiples of the golden section are badly approximable: the norm of a non-zero element of Z[phi] is at least one; trade-off of latitude and longitude |
| C131 | `Generation.fibonacciPoints` | sines of latitudes are an arithmetic progression; counting |
| C132 | `Generation.fibonacciPoints` | Fibonacci denominators: residues of multiples of a coprime number; choice of the number of rows by latitude; area of the ellipsoid |
| C133 | `Soc.walker`, `Soc.members`, `Walker.increments` | spherical triangles: nearest node among equally spaced ones, nearest satellite in the plane; above the threshold a place halfway between planes and satellites, both even in number |
| C134 | `aggregateObservations`, `reduceObservations`, `computeLatencies`, `reduceLatencies` | every step commutes with the shift: sorting looks at comparisons only, differences cancel |
| C135 | `computeLatencies` | the earliest downlink after the end is monotone in the end; two overlapping contacts as counterexample for the reported middle |
| C136 | `aggregateObservations`, `reduceObservations` | the sum over the rows of a point telescopes; means with their rounding from C06 |
| C137 | `collectMultiObservations`, `aggregateObservations`, `minElevation` | total access as the number of observed ticks (C96), a run of visible ticks lies in one period, monotone minimum elevation (C47); two passes that merge as counterexamples |
| C138 | `readEpoch`, `getEpoch`, `epochColumns` | calendar by induction on years; year and day of a number of days by integer arithmetic; rounding commutes with whole days |
| C139 | `Walker.increments`, `Walker.members`, `Soc.members` | distance of two points on circles of one radius and inclination as a sum of two squares of sines of half angles, the second of which vanishes twice a turn |
| C140 | `Ieee.fl`, `Ieee.mod360`, `Ieee.thereAndBack`, `Ieee.derived` (doubles as reals of the form n 2^e, operations rounded to nearest, ties to even) | rounding is monotone and keeps doubles; remainders below 360 round to 360 exactly when within 2^-45 of it; relative error of every operation added up |
| C141 | `Ieee.satellitesPerPlane` | a quotient of numbers below 2^53 is either an integer or farther from the integer below than the rounding |
| C142 | `Ieee.gridStep`, `Ieee.turn`, `Ieee.gridPoints` | as C40 with the rounded quotient; relative errors of the four operations added up |
| C143 | `Mog.members` | positions from the eccentric anomaly in the frame of the reference; second order bounds of sine, cosine and square root |
| C144 | `Walker.members` | the pattern continued in both directions is taken by members (division with remainder); distinctness (C29) makes the shift a permutation |
| C145 | compute_number_samples with every operation rounded to nearest even | monotone rounding; cos x >= 1 - x^2/2 rounds to one; error analysis of the cancellation R - R cos x |
| C146 | generate_fibonacci_lattice_points with every operation rounded | error analysis of latitudes with gaps at least 2^-49; exactness of remainders (a remainder of a double is a double, m - 360 is exact); value of the golden ratio computed |
| C147 | generate_fibonacci_lattice_points with a mask, every operation rounded | adding 360 to a negative longitude is exact; case analysis on the sheet |
| C148 | the three functions with every operation rounded, NaN explicit | relative error analysis up to the inverse cosine, then (arccos a - arccos b)^2 <= pi^2/2 |a-b|; bounds from monotonicity of rounding and rounded constants |
| C149 | get_true_anomaly over the accessors of the lines | the contract of the export gives the stored elements; Lipschitz bound of the series in both arguments; the two series undo each other up to the fourth order through the exact mean anomaly |
| C150 | collect_observations, collect_multi_observations, collect_downlinks, compute_latencies | sublists through nested flatMap; C96 and C14 for the consequences |
| C151 | Model.IeeeCells (sides of a cell as rounded sums of rounded products) | errors of the rounded sides and points are below 1e-12 degrees, a step is at least 1e-6 degrees; discrete intermediate value for the covering |
| C152 | Model.PointSchema (validation of Point), Model.IeeeGrid, Model.IeeeLattice | monotonicity of rounding: the quotient exceeds a half integer only if the exact one does; a computed counterexample |
| C153 | Model.IeeeKepler (the loop with rounded operations, fuel for its steps) | steps contract by e up to 2e-15; geometric decay to below the tolerance |
| C154 | Model/Coverage | frames that cover the same instants have the same connected components (a gap between two components is longer than half a tick), components are unique, and access and revisit are functions of them |
| C155 | Model/Grid | all points of a group share the label of their cell, so the weighted mean is the plain mean; rounding to microseconds keeps it between integer bounds; groups partition the join |
| C156 | Model/Ro | the yaw test is monotone in the limit for angles of an inverse tangent; a maximal run of the narrower setting extends to a maximal run of the wider; rows are those of maximal runs (C57, C61) |
| C157 | Model/Coverage, Model/Latency | an unobserved period between two observations lies within a revisit and conversely; the chosen contact is the earliest (C12) and its epoch is its middle (C73); means lie between the least and the greatest value |
| C158 | Model/IeeeMean | every operation is a rounded real operation; the compensated sum keeps an invariant on the compensation and on sum less compensation; the errors of conversion, sum, quotient and timedelta add up |
| C159 | Model/IeeeMean | the compensated sum of C158 on time stamps; rows differ from the exact ones only in the epoch |
| C160 | `instrumentRun` (threshold, access limit, events to intervals); orbit, turning place and what is reported in `Spec/Passes.lean` | no pass is as long as the limit allows (C112_inclined, extended from rational to real times by closedness); intervals are those of the signal (C08); swath geometry (C120); counting of ticks (C96) |
| C161 | `stationRun` (access limit, events to intervals), `collectDownlinks`, `computeLatencies` | no pass is as long as the limit (C112_inclined), intervals are those of the signal (C08), rows of C73, first eligible row of C12 |
| C162 | `Soc.make`, `Soc.walker` | chords determine the angles between satellites and planes (C37), the sine is monotone up to the horizon, least numbers of parts are antitone in the angle; closed forms at half the circumference |
| C163 | Model/Schema.lean (declarations as tables) against Spec/Ranges.lean | one equivalence per kind of field, then per class; reading fields in order fails exactly when one of them does |
| C164 | Model/Session.lean (settings and stored cycle as state, calls as steps) | induction over the history: the settings are those made last, the stored cycle is that of the last search |
| C165 | Model/Polygon.lean | the parts of the first result lie on the globe and have no step of more than 180 degrees, so that the longitudes are not unwrapped the second time; what is left is a cut at the antimeridian that leaves the points covered |
| C166 | Model/Times.lean | the points of each angle are an array over the times; its i-th column is the list of the points of the i-th state, by induction over the angles |
| C167 | Model/Repair.lean | case distinction on what make_valid gives; the parts of a collection are its polygons followed by those of its multipolygons |
| C168 | Model/IeeePeriod.lean | relative errors as powers of one factor (Rel), multiplied along the formula; monotonicity of rounding |
| C169 | Spec/Symmetry.lean | a turn about the axis or a mirror image preserves lengths and angles (moved_dot), so the ticks at which the point is seen are the same; then C160 |
| C170 | Props/InView.lean (Watched) | the visible intervals are the times at which the threshold is exceeded (period_ticks), their ends are events (interval_ends) |
| C171 | Props/SightGap.lean | from C160_observed, C03 and C157: aggregated rows are separated, and none of them is empty |
| C172 | Props/Recurs.lean | from C160_total: the times at which the point is seen are the former ones, shifted |
| C173 | Props/Arrival.lean | composition of C170 and C161, with the contacts of all satellites in one frame |
| C174 | generate_walker with each operation rounded (Model/IeeeSoc) | relative errors propagated through the geometry, the elevation near the horizon bounded by the square root of the rounding error, least parts from the ceiling |
| C175 | both conversions with each operation rounded (Model/IeeeSoc, Model/IeeeViewing) | relative error of the field of regard, arc cosine bounded by the square root of the error, C148 for the way back |
| C176 | swath_width_to_field_of_view with each operation rounded (Model/IeeeFov) | error of the central angle from C148, Lipschitz bounds of sine, cosine and arc tangent with a denominator of at least 0.0153 |
| C177 | the three functions with each operation rounded (Model/IeeeGround) | absolute errors of the two rates, relative errors of quotient and product |
| C178 | both series with each operation rounded (Model/IeeeAnomaly) | a calculus of absolute errors (Within) through products, sums and sines, and C103 |
| C179 | inclination and derived orbit with each operation rounded (Model/IeeeSso) | relative errors through the power, error of the arc cosine near -1, monotonicity of rounding, a tie to even at the bound |
| C180 | increments and members with each operation rounded (Model/IeeeWalker) | error of multiples of rounded quotients, C140 and C141, separation of the slots much larger than the error |
| C181 | days, increments and members with each operation rounded (Model/IeeeTrain) | rounding is odd, relative errors of the products, C140 and C168, exact evaluation of the counterexample |
| C182 | the derivation with each operation rounded (Model/IeeeDerived) | signs of the terms of the series next to 0 and 360 degrees, exact evaluation at the last double below 360, margins of the exact series elsewhere, a Lipschitz bound for the series |
| C183 | members with each operation rounded (Model/IeeeDerived) | C182, Lipschitz bounds of the series from above and, up to an eccentricity of 0.3, from below |
| C184 | members with each operation rounded (Model/IeeeDerived) | C181 for the increments, C182 for the orbits, Lipschitz bound of the series |
| C185 | the derivation with each operation rounded (Model/IeeeTle) | the remainder is exact but for the difference of the double to a full turn times the number of turns; C180 for the increments |
| C186 | members with each operation rounded (Model/IeeeTle) | C181 for the increments, C185 for the angles |
| C187 | members with each operation rounded (Model/IeeeTle), writing as a tolerance | C185 for the angles, slots further apart than twice the tolerance |
| C188 | members with each operation rounded (Model/IeeeTle), writing as a tolerance | C186 for the angles, intervals longer than twice the tolerance |

Out of the model altogether: SGP4/skyfield propagation and event search, geodesy
(`wgs84`), shapely's polygon clipping and buffering, SPICE, plotting, YAML
parsing.  They appear as parameters.

## Disagreements between the code and the properties

Each is proved: the theorem with the suffix `_false` exhibits inputs on which the modelled code violates the property.

| id | what the code does instead, and what is proved | refutations |
|---|---|---|
| C07 (Gridded observations are sample-weighted means of the points in a cell) | Full statement is false of the code: the weights are looked up in the reduced frame by the row label of the cell instead of the point's own row label. Refutation and the case where the lookup is harmless are proved. | `C07_weighted_mean_false`, `C07_key_error` |
| C08 (Visible intervals are exactly the visible times) | False when a satellite is visible through the whole window and no culmination falls in it (no event, no interval). Proved for every signal otherwise. | `C08_visible_exact_false` |
| C10 (Collected observations satisfy the access-time requirement) | False for fixed access times of an odd number of microseconds (half is rounded to even); exact for even, within 1 microsecond always. | `C10_fixed_access_false` |
| C11 (Multi-satellite collection loses and invents nothing) | Proved for every list with at least one member and instrument. For an empty list the code raises ValueError instead of returning an empty frame. | `C11_multi_false`, `C11_empty_list_raises` |
| C12 (Each observation is delivered by the earliest eligible downlink) | False for an empty downlink frame (observations are dropped); proved for every non-empty one. | `C12_earliest_downlink_false` |
| C14 (Delaying or adding downlinks changes latency monotonically) | The downlink start is monotone; the reported latency value is not (C14_latency_value_false). | `C14_latency_value_false` |
| C17 (A time partition uses the nearest element set throughout each part) | False of the code: every part after the first is served by the element set before the nearest one (C17_later_parts_off_by_one: the nearest is always index+1). Times and the first part are right, the first part unless start is itself a midpoint. | `C17_partition_false`, `C17_later_parts_off_by_one` |
| C18 (Accepted element sets are well formed) | Reading the epoch from the lines (sgp4) is a parameter. A list with an odd number of lines is rejected, but with IndexError from a validator instead of a validation error. | `C18_odd_index_error` |
| C20 (Element-set accessors read the fields that were written) | Every field but the epoch (C138). Drag term and second derivative are read back only when non-negative: a negative one raises ValueError (C20_negative_false). | `C20_negative_false` |
| C21 (Every accepted element set can be read) | False: negative drag terms and catalog numbers with a letter are accepted and raise when read. Proved for the standard layout with non-negative terms. | `C21_readable_false` |
| C22 (Cached conversions never change an answer) | False after attribute assignment (the cached value is kept). Proved for histories without assignment, and for any history without lazy loading. | `C22_assignment_false` |
| C23 (Repeat-cycle queries answer for their own arguments) | False: with lazy loading the first answer is returned whatever the later arguments are. | `C23_repeat_cycle_false` |
| C25 (Repeat-track events cover the whole window) | Rounding the quotient under ceil changes nothing for windows shorter than 285 years (C25_rounded_events; beyond, an event can be lost). Events found in one cycle lie after its start (an event exactly at the start would be repeated at every boundary) | `C25_rounded_events_false` |
| C28 (A Walker constellation uses every plane) | False: e.g. 5 satellites in 4 planes leave the last plane empty. The exact number of members of every plane is proved, and that every plane is used exactly when (p-1)*ceil(n/p) < n. Rounding of the quotient under ceil: C141. | `C28_every_plane_false` |
| C29 (Walker geometry follows the pattern n/p/F) | Proved for circular, sun-synchronous and element-set leads. False of the reported mean anomalies for an eccentric lead (the truncated anomaly series are not inverse). | `C29_keplerian_false` |
| C32 (Derived Keplerian orbits are always valid) | Proved for eccentricities up to one. The schema accepts larger ones, and there deriving can fail validation. | `C32_derived_valid_false` |
| C33 (Derived Molniya and Tundra orbits keep their period) | False: the orbital period is not passed on, so a derived orbit has the default period. | `C33_period_false` |
| C36 (Mutual-orbiting-group members are tilted by the requested angle) | Proved for every group that is generated, and that groups with eccentricity below one whose planes are not turned right over are generated. A member turned right over (inclination exactly 180) is refused by validation. | `C36_generated_false` |
| C39 (A mask selects the lattice points inside it) | Proved for masks whose longitudes lie on one side of the shift made for masks beyond 180 degrees; false for a mask from -60 to 190. | `C39_mask_false` |
| C40 (Grid identifiers are unique) | Without a mask unique exactly when 360 degrees is at most half a step above a whole number of steps; with a mask proved when it is at least one step narrower than the full turn. | `C40_points_false` |
| C42 (A masked grid is the part of the global grid inside the mask) | Proved when no grid centre lies on a side of the bounding box of the mask; on a side the rounding may lose it. Up to order, which clipping does not promise. | `C42_mask_false` |
| C44 (Finer sampling distances never give fewer samples) | Proved up to half way round the Earth (at least one sample: up to a quarter). False beyond: no sample at half way, division by zero at two circumferences. | `C44_positive_false` |
| C47 (Wider fields of regard see more) | Bounds for every accepted field of regard. Monotone up to 180 degrees; false beyond (360 degrees sees nothing). | `C47_monotone_false` |
| C50 (Access time and along-track distance are inverse and ground velocity follows inclination) | Inverse for orbits of less than a sidereal day. The statements on inclination are false: degrees() is applied to an angle already in degrees. | `C50_polar_false`, `C50_polar_rounded_false`, `C50_monotone_false` |
| C53 (Unwrapping at the antimeridian is continuous) | Exterior rings: proved. Holes: proved when the vertex lies strictly within the longitudes of the exterior, which holds for every valid polygon; a vertex outside is shifted by part of a turn. | `C53_interior_false` |
| C54 (Wrapping returns valid longitudes) | exact splitting by shapely (contract Splitter, met by rectangles) | `C54_wrap_fails` |
| C55 (Wrapping over a pole treats both poles alike) | North pole: proved, holes included. South pole: proved without holes; with a hole TypeError is raised. | `C55_south_false` |
| C56 (Geometry collections are flattened to polygons) | Proved up to order without nested collections; nested collections are dropped and parts of multipolygons come last. | `C56_flatten_false` |
| C60 (Yaw acceptance is symmetric fore and aft) | Proved for every limit but the yaws 180 (exactly behind: rejected) and 180 - max_yaw (accepted behind while its mirror image is rejected in front). | `C60_yaw_false` |
| C64 (Dilution of precision is computed whenever enough satellites are visible) | False: with exactly min_count_visible satellites there is no value, the geometry is (latitude, longitude) instead of (longitude, latitude), and without satellites IndexError is raised. Proved: one row per time, value exactly when more than the minimum are visible and their directions are not in one plane. | `C64_present_false`, `C64_geometry_false` |
| C65 (Illumination constraints are decided exactly) | One time and two or more times: proved. An array of one time gives one truth value instead of an array, an empty array raises IndexError. | `C65_short_false` |
| C66 (Detector pixels tile the field of view) | Proved: counts, symmetry, equal spacing, centres inside, exact tiling without overlap. False: the overlap is 1 - (1 - o)^2 instead of o, and with overlap and few pixels the pixels reach out of the field of view. | `C66_overlap_false`, `C66_along_overlap_false`, `C66_edges_false` |
| C67 (Projected pixels lie at their detector angle) | Proved: the ray leaves the boresight in the direction of the pixel. False: at half of the cone angle. | `C67_cone_false` |
| C68 (Rectangular footprints trace the rectangle's boundary) | Proved for square fields of view; otherwise rays near the corners are outside of the rectangle, and there are four times as many vertices as requested. | `C68_wide_false`, `C68_long_false`, `C68_count_false` |
| C69 (Orbit tracks have one record per requested time) | Without a mask: proved. With a mask, geodetic coordinates: the same records, but clipping does not promise the order. Earth-fixed and inertial coordinates: the mask in degrees is compared with metres and all records are lost. | `C69_order_false`, `C69_frame_false` |
| C70 (Ground tracks keep every segment) | Proved when no line is split, for the rows of any orbit track and for the whole computation from the times (C70_track_partial). When a line is split, parts are paired with other groups' swath widths and the last ones are dropped. A group of one sample raises ValueError. Parts lie within 180 degrees when the antimeridian is crossed on one side by less than a turn. | `C70_dropped_false`, `C70_misplaced_false`, `C70_antimeridian_false`, `C70_single_false`, `C70_longitudes_false` |
| C72 (Loading a configuration either gives a valid configuration or a configuration error) | A loaded configuration is always valid and holds what the file says. Missing files, errors of the parser and mappings with text keys: proved. Empty files, lists, other keys, errors of the scanner, undecodable files and directories raise other exceptions. NaN is not modelled. | `C72_error_false` |
| C74 (A mutual orbiting group goes around its reference satellite) | False: the true anomaly of the reference orbit is ignored. Proved (with a sharper bound) for reference orbits at true anomaly zero. | `C74_near_reference_false`, `C74_anomaly_ignored` |
| C75 (Grid cells cover the area they are generated for) | Proved more than half a step inside the bounding box; false for a mask narrower than half a step. | `C75_cover_false` |
| C79 (The antimeridian latitude of a polygon around a pole) | False: the latitude is that of the westernmost vertex, which is right only when both vertices have the same latitude or the westernmost is on the antimeridian. | `C79_latitude_false` |
| C80 (Splitting a polygon returns coordinates on the globe) | Proved without holes and heights; polygons with heights around a pole and with holes over the south pole raise. The repair of invalid results is included, with make_valid under the contract Repairer. | `C80_heights_false`, `C55_south_false` |
| C81 (Angles of rays have the documented units) | False: both are in radians. | `C81_clock_false`, `C81_angle_false` |
| C82 (Pixel indices run from left to right and from fore to aft) | Fore to aft: proved. Left to right: false, the cross-track index runs from right to left and angle zero is to the left. | `C82_left_false`, `C82_angle_false` |
| C83 (Roll and pitch turn the boresight) | For a satellite moving across its vertical. Roll: proved below 90 degrees, above it the boresight is the opposite one. Pitch: below 90 degrees positive pitch looks ahead, as the instrument documents; it is left-handed about the orbit normal, unlike the functions document. | `C83_roll_false`, `C83_pitch_false` |
| C84 (Elliptical footprints have the requested opening) | Proved below 180 degrees. Above, the edge is seen at 180 - f/2 degrees. Exactly 180 degrees is not modelled (np.tan of 90 degrees). | `C84_wide_false` |
| C86 (Masking a ground track is clipping it) | Proved, up to order, for exact footprints with polygons and data frames if buffer_target is wide enough, and for one time. False for series (only the first geometry is used) and for projected circles (culled by the exact footprint). | `C86_series_false`, `C86_circles_false` |
| C88 (Orbits are counted from the first time) | The numbering is right, but reported times are rounded to the millisecond: a first time that is rounded down is in orbit -1, and the line method then raises ValueError. | `C88_start_false`, `C88_line_false` |
| C90 (An orbit and its element set describe the same motion) | export_tle writes each element to the precision of the format (contract Exporter). Circular and sun-synchronous orbits: proved. Keplerian, Molniya, Tundra: proved for eccentricities up to 3/4. For eccentricity 0.95 the truncated series of the mean anomaly is negative and the element set is refused. Missing epochs and epochs without time zone are accepted by the schema and raise TypeError on conversion. | `C90_eccentric_false`, `C90_epoch_false` |
| C91 (Period, mean motion and altitude survive conversion) | Keplerian: eccentricities up to 3/4. Molniya (and Tundra) orbits report the period and mean motion of a circular orbit at the altitude of perigee: 15 revolutions per day instead of 2. | `C91_molniya_false` |
| C92 (The altitude of a Molniya or Tundra orbit is that of its perigee) | Perigee and semimajor axis: proved of Molniya orbits. Tundra orbits ignore the altitude. Molniya orbits with an altitude above the semimajor axis or below the centre of the Earth are accepted and have a negative eccentricity or one above 1. | `C92_tundra_false`, `C92_eccentricity_false` |
| C94 (The field of view covers the swath it was computed from) | Proved at nadir, and off nadir for half the given look angle: the code divides the look angle by two. One mean radius up, a swath seen within 30 degrees gives more than 35. | `C94_look_false` |
| C95 (Culling keeps every time at which the target is in view) | Proved along the meridian of the satellite. The buffer is drawn in an equidistant cylindrical projection, so targets to the east or west at high latitude are lost; with descending times the buffer is negative. | `C95_latitude_false`, `C95_order_false` |
| C97 (More observations never lengthen a gap) | Proved of revisits between earlier observations. False when an observation is added outside of them (a new gap), and false of the mean revisit: covering the shorter of two gaps raises it. | `C97_outside_false`, `C97_mean_false` |
| C98 (The columns of a result do not depend on whether it is empty) | Proved of collected and reduced frames, of tracks without optional columns, and that the analyses can be chained. False of aggregated frames (access and revisit), latencies (altitude and azimuth), tracks with optional columns and grids (further columns of the cells). | `C98_tracks_false`, `C98_aggregate_false`, `C98_latencies_false`, `C98_aggregated_latencies_false`, `C98_grid_false` |
| C100 (A repeated orbit track is where the satellite is) | Proved within one cycle of the epoch and without repeats. Further away the inertial position of the propagated time is combined with the rotation of the Earth at the requested time, so the track is off by the turn of the orbit plane in all the cycles between (about a degree a day for sun-synchronous orbits); exact condition in C100_iff. | `C100_sun_synchronous_false` |
| C101 (The orbit track shows what observation events report) | Proved within one cycle of the epoch and for orbits whose plane does not turn. False for sun-synchronous orbits: events are right, the track is not (C100). | `C101_sun_synchronous_false` |
| C102 (Total access is the time a satellite is in view) | visibility histories as in C08 (a satellite in view for the whole window culminates in it); times are ticks. C102_fixed_false: with fixed access times the total is that of the fixed times. | `C102_fixed_false` |
| C103 (Anomaly conversions solve Kepler's equation) | Truncated series: proved to be right up to the fifth (mean anomaly) and fourth order (true anomaly, round trip) of the eccentricity, with constants, for every eccentricity below one. Exactly: false; at eccentricity 0.6 the true anomaly is off by more than 8 degrees. | `C103_true_anomaly_false`, `C103_mean_anomaly_false` |
| C104 (Objects written to data and read back are the same) | Proved of single objects, of satellites and constellations with plain instruments (mutual groups and streets on circular orbits) and of architectures without streets of coverage. False of pointed instruments (they come back without their pointing, silently), of mutual groups on an elliptic orbit and of streets of coverage in an architecture (the dump is refused). | `C104_pointed_false`, `C104_mutual_group_false`, `C104_streets_false` |
| C105 (Every orbit of the library can be flown) | Proved of two line elements, circular, sun-synchronous and Keplerian orbits. False of Molniya and Tundra orbits, which no satellite takes. | `C105_orbits_false`, `C105_molniya_false` |
| C106 (The same data make the same orbit) | Proved of data with an epoch. Without one the epoch is the time at which the library was imported. | `C106_default_epoch_false` |
| C107 (Vertices of a footprint are points that the satellite sees) | Proved of satellites whose velocity is level, and of others where the ray meets the ground or the plane of its angle cuts the limb. False of satellites that climb or sink steeply, as on Molniya orbits: the plane of a ray that misses the Earth need not cut the limb. C107_limb says which point of the horizon a ray that misses gives: the one in the plane of its angle that makes the smaller angle with the ray at the Earth's centre. SPICE functions in closed form; recgeo not modelled. | `C107_steep_false` |
| C108 (Footprints show what is in the field of view) | Proved of rays that meet the ground. False of instruments that look past the Earth: their footprint is made of points of the limb. | `C108_outside_false` |
| C110 (Observation rows are the times at which the instrument sees the point) | Proved of the reported epoch, the middle of the pass, at which alone the tests are made. False of the rest of the row, and passes that are observed at other times than their middle are missing. | `C110_beyond_false`, `C110_missed_false` |
| C111 (Observed points are in the field of regard) | Proved (on a sphere) of satellites that keep the altitude they had at the start and points at sea level. False, both ways, when the altitude changes, and of points above sea level. | `C111_altitude_false`, `C111_elevation_false` |
| C112 (No pass is too long to be observed) | Proved for every orbit plane and every place on the turning Earth up to 10000 km, and over the equator for satellites that go around at least twice a day (C48: points that do not turn). False of high orbits: 30000 km over the equator a pass of more than 27 hours is dropped. Missing: other inclinations above 10000 km. | `C112_long_false` |
| C113 (Splitting a polygon keeps the places it covers) | Proved of polygons with longitudes in [-180, 180], less than 90 degrees beyond the poles and without holes beyond the south pole, from a contract of shapely.split (Cutter) that clipping of arbitrary polygons without holes is proved to meet. False of polygons given with longitudes beyond the antimeridian, which are returned as they are, and of holes beyond the south pole, which raise. Repair by make_valid: C167. | `C113_beyond_false`, `C55_south_false` |
| C114 (Splitting a polygon around a pole keeps the places it covers) | Proved of polygons without holes and heights whose vertices are given from west to east once around the globe, with the first and last at the same latitude or the first on the antimeridian, from the contract of shapely.split (Cutter). False of every such polygon whose first and last vertices are at different latitudes, because the latitude on the antimeridian is that of the first vertex; and of vertices in another order, because they are arranged by longitude. | `C114_latitude_false`, `C114_order_false` |
| C115 (Pointing an instrument does not change its field of view) | Proved of instruments that point straight down. False of all others below 90 degrees: tangents of roll, pitch and half the field of view are added, so the field of view is always narrower than requested. | `C115_turned_false` |
| C117 (Aggregating in stages gives what aggregating at once gives) | Points, starts, ends, access, revisit and everything reduced from them are equal. False of the epoch column: it is the mean of means. | `C117_epoch_false` |
| C118 (Access over consecutive periods adds up) | Proved with settings with which every pass counts and of events that tell whether the satellite is in view. False with a minimum access time (both halves of a pass that is cut may be too short), and of a period within a pass during which the satellite does not culminate (C08), which gives no rows. | `C118_minimum_false`, `C118_within_false` |
| C119 (The ground track shows what the instrument sees) | Proved: footprints contain only places that are seen. False: at every latitude they leave out places that are seen, because the buffer is drawn in an equidistant cylindrical projection; to the east and west the footprint is too narrow by the cosine of the latitude. On a sphere; the polygon that stands for the circle of the buffer is inscribed. | `C119_seen_false`, `C119_everywhere_false` |
| C120 (The swath width spans what is observed) | Swath width and minimum elevation angle bound the same places for every field of regard; they are the places within half the field of regard up to 180 degrees. Beyond 180 degrees the last is false (C120_wide_false): an instrument that looks everywhere has no swath. | `C120_wide_false` |
| C121 (The members of a constellation are independent objects) | Proved of trains, Walker and mutual orbiting group constellations, and of the members of streets of coverage. False of a single satellite, whose only member is the satellite itself, and of SOCConstellation.generate_walker, whose result shares the orbit and the instruments of the constellation. | `C121_satellite_false`, `C121_walker_false` |
| C122 (Analyses leave the frames they are given unchanged) | Proved of the six analyses for every history of calls, from which operations of pandas return new frames. False of normalize_geometry: a data frame whose polygons have to be split is changed and returned itself. | `C122_normalize_false` |
| C123 (A derived element set describes the same satellite, turned) | From a contract of reading and printing element sets (Sgp4) that is shown to be met. The satellite is lost: the catalog number of a derived element set is always zero. | `C123_identity_false` |
| C133 (A streets of coverage constellation observes continuously) | Proved for packing distances up to sqrt(4/7) = 0.7559, on the sphere of the mean radius, for satellites that move uniformly; false with every larger packing distance (some swath from a polar orbit at 2000 km leaves a gap at the equator), in particular with 1 (80 satellites). | `C133_streets_false`, `C133_touching_false` |
| C135 (Observations are delivered in the order in which they were made) | Proved of the contacts that are chosen (the one of the earlier observation is the same or starts earlier), and of the reported times where contacts that start later also have a later middle; false in general, as the reported time is the middle of the contact, and the middle of a long contact can come after that of a shorter later one. | `C135_order_false` |
| C137 (A wider field of regard never gives less access) | Proved for all satellites, fields of regard and minimum access times, without fixed access times and tests of illumination or footprint; false with them (two passes merge into one that counts once; a test looks at the middle of the pass only). | `C137_fixed_false`, `C137_test_false` |
| C138 (The epoch of an orbit survives its conversion to two line elements) | Reading: proved. Writing and order: proved for the years 1957 to 2056. From 2057 on element sets are a hundred years early, as years have two digits, and element sets before and after the end of 2056 are refused. The functions of sgp4 are modelled in closed form, without rounding of floats. | `C138_century_false`, `C138_order_false` |
| C139 (Members of a constellation never meet) | False: streets of coverage on polar orbits meet above the poles, and Walker constellations 4/2/0 at the nodes. Proved, for constellations with equally many satellites in all planes that move uniformly on circular orbits: the least distance of any two members, exactly; when it is 0; and the distance of members of one plane. | `C139_streets_false`, `C139_walker_false` |
| C140 (Derived orbits are valid in double precision) | Proved: exactly when deriving succeeds, always for increases that are not negative, and that angles are right to 1e-9 degrees for increases up to a million degrees. False: an orbit with its node at 0.3 degrees cannot be turned back by 0.1 + 0.2 degrees (the node would be at 360.0); a satellite at 3 degrees is moved by one unit in the last place by increases of nothing. Circular orbits; doubles without overflow, multiplications and additions rounded one by one. | `C140_backward_false`, `C140_nothing_false` |
| C141 (Rounding does not change the number of satellites in a plane) | Proved for fewer than 2^53 satellites; false for 2^53 + 1 satellites in 2^53 planes. | `C141_per_plane_false` |
| C142 (Identifiers of points are unique with distances that divide the circumference) | Proved: exactly when identifiers are distinct, in terms of the rounded quotient, and from the distance alone unless it fits within a millionth of a whole (or half) number of times into the circumference. False for a 150th of the circumference (and for many other parts). Without a mask. | `C142_part_false` |
| C144 (All members of a Walker constellation play the same part) | Proved for delta constellations with equally many satellites in all planes, on orbits that are not given by an eccentricity (for those the anomalies are not equally spaced, C29_keplerian_false; with unequal planes see C28). False for star constellations, whose first and last planes are not neighbours. | `C144_star_false` |
| C145 (The number of samples is right and falls with distance in double precision) | The full statement (every positive distance) is refuted by C145_small_false; the cosine is assumed to be correctly rounded. | `C145_small_false` |
| C148 (Viewing geometry survives rounding) | Sines, cosines and their inverses are assumed to be correctly rounded. Where the surface is above the instrument the field of regard is NaN (C148_below_false: altitude 0, elevation 8848 m), outside of the property. | `C148_below_false` |
| C149 (The true anomaly survives conversion to an element set) | In full for circular and sun-synchronous orbits (1e-4 degrees). For Keplerian orbits up to the fourth order of the eccentricity, for eccentricities up to 3/4; the statement is false beyond (eccentricity 0.6: more than half a degree off, C149_eccentric_false). Printing and reading of sgp4 are the contract Exporter. | `C149_eccentric_false` |
| C150 (Asking less loses no observation and no delivery) | Proved of instruments without fixed access times (with them: the number of rows is not smaller). False of the total access time with fixed access times: they are cut to the minimum access time, so that a shorter one gives less access. | `C150_fixed_false` |
| C152 (Rows of generated points are valid points) | Proved of the Fibonacci lattice. Proved of equally spaced points unless the number of columns or rows that fit on the globe is within a millionth of a half. False there: with the 571st part of the circumference (70105.47934232464 m) the last row has latitude 90.00000000000003 and Point raises a ValidationError; the excess is at most 1e-12 degrees for every distance. | `C152_grid_false` |
| C154 (Access and revisit depend only on when each point is observed) | Both directions: equal rows also force equal instants. C154_epoch_false shows why the epoch column is not included. | `C154_epoch_false` |
| C159 (Epochs of merged observations survive rounding) |  | `C159_within_false` |
| C162 (Wider swaths never need more satellites) | Proved for swaths up to the horizon (and that there are always at least three planes of three). False beyond: from one Earth radius up, the widest swath in view needs 12 satellites and one of half the circumference at least 25, since both sides of the horizon have the same nadir angle; a swath of one and a half times the circumference is accepted by the schema and raises a ValidationError when the constellation is generated. | `C162_beyond_false`, `C162_accepted_false` |
| C163 (Exactly the documented arguments are accepted) | Equivalence with a separate table of documented ranges (Spec/Ranges.lean). Numbers are rational: NaN and infinity are outside the model, as are the conversions pydantic makes between types. C163_sense_false: the documented ranges themselves admit objects without physical meaning (eccentricity 2, altitude below the centre of the earth, negative access time). | `C163_sense_false` |
| C164 (Settings count from the time they are changed) | Proved in every history for every call that does not load a stored repeat cycle. A call that may load one uses the result of the last search that was made, with the settings and arguments of that search (C164_stored is the exact characterisation); so the claim also holds when all calls ask for the same repeat (C164_constant), and is false with the default settings once a tolerance is changed after the first orbit track (C164_stale_false). One object with one element set; the search itself is a parameter whose results are positive. | `C164_stale_false` |
| C166 (Footprints, limbs and projected positions of several times are those of each time, in order) | Positions and limbs: proved for every number of times. Footprints: proved for two times or more; refuted for an array of one time, which gives the bare geometry instead of a list of it, and for an array of no times, which raises a TypeError. The columns of the arrays are modelled as states. | `C166_single_false`, `C166_none_false` |
| C167 (What splitting returns is valid, and only what is invalid is repaired) | Validity and normalisation of masks: proved. A polygon that encloses no area is returned as a line or point, and giving it an elevation raises AttributeError (C167_line_false). Contract of make_valid: Repairer, met by dropLines. | `C167_line_false` |
| C174 (Streets of coverage designs survive rounding) | Proved for altitudes of 100 to 100000 km, swaths of at least 1 km within the horizon and packing distances of at least one millionth, with sines, cosines and their inverses taken to be correctly rounded. C174_tiny: for swaths of at most 2^-80 m no design is returned, and C174_small_false exhibits one that is accepted and has a design in exact arithmetic. Missing: swaths between 2^-80 m and 1 km, packing distances below one millionth, orbits above 100000 km. | `C174_small_false` |
| C179 (Sun-synchronous inclinations and nodes survive rounding) | The part on inclinations is proved in full. Derived orbits are valid at all altitudes at least 2^-29 m below the bound; the full statement is false: at the altitude 2^-30 m below the bound, which is accepted, the inclination is exactly 180 degrees and get_derived_orbit raises a ValidationError for all arguments. The power and arc cosine are taken to be correctly rounded, and the right ascension of the sun is a parameter from 0 to 360 degrees (the ephemeris gives it). | `C179_top_false` |
| C181 (Trains of satellites survive rounding) | Proved: the places of all members of every train that is generated, and that a train is generated unless a member other than the first comes to be at an anomaly or a right ascension of zero but for rounding. The full statement is false: a train of four satellites with an interval of -24 s whose lead has its node at 0.3 degrees raises a ValidationError (the node of the fourth is 360.0). | `C181_members_false` |
| C182 (Derived Keplerian orbits survive rounding) | Proved: the angles of every derived orbit that is returned, and that one is returned unless one of the two sums is negative and less than 2^-45 degrees below a whole number of turns. The full statement is false: a node at 0.3 degrees turned back by 0.1 + 0.2 degrees comes to be at 360.0 degrees, which is refused. | `C182_valid_false` |
| C185 (Derived element sets survive rounding) | On the elements passed to sgp4init; the export to text is in C90 and C123. The upper end is reached (C185_turn_false): a mean anomaly of zero decreased by 2^-55 degrees comes out as 2*np.pi, which is written as 360.0000. | `C185_turn_false` |
| C188 (Members of trains around element sets differ as written) | C188_short_false: a least interval is needed, two satellites a microsecond apart are written the same. The writing is any value within 0.000051 degrees up to whole turns; that the exporter of sgp4 writes four decimals is a contract of that library (C90, C123). | `C188_short_false` |

## What is modelled

For every function of the package: the definitions of the model that cite it.  Functions without an entry are not modelled;
the libraries they call appear as parameters where a caller is modelled.

| function | model |
|---|---|
| `analysis/coverage.py` `_get_visible_interval_series` | `IeeePeriod.microseconds`, `IeeePeriod.maxAccess`, `Coverage.EventKind`, `Coverage.Interval`, `Coverage.matching`, `Coverage.visibleIntervals`, `Collect.accessLimit`, `Collect.Looking`, `Collect.instrumentRun`, `Collect.stationRun` |
| `analysis/coverage.py` `_get_empty_coverage_frame` | `Frames.Frame`, `Frames.emptyCoverage` |
| `analysis/coverage.py` `collect_observations` | `Coverage.Obs`, `Coverage.Interval.mid`, `Coverage.halfAccess`, `Coverage.observationRecord`, `Coverage.collectObservations`, `Coverage.InstrumentRun`, `Frames.Frame`, `Frames.collectObservations`, `Collect.regardThreshold`, `Collect.testsAt`, `Collect.Looking`, `Collect.instrumentRun`, `Solar.isSunlit`, `Solar.hourAngle`, `Solar.solarTime` |
| `analysis/coverage.py` `collect_multi_observations` | `Pandas.SortValues`, `Pandas.SortValues.insertion`, `Coverage.collectMultiObservations`, `Frames.concat`, `Frames.collectMulti` |
| `analysis/coverage.py` `_get_empty_aggregate_frame` | `Frames.emptyAggregate`, `Store.Kit` |
| `analysis/coverage.py` `aggregate_observations` | `Pandas.SortValues`, `Pandas.SortValues.insertion`, `Pandas.groupKeys`, `Pandas.groupBy`, `Pandas.shift`, `Pandas.cummaxFrom`, `Pandas.cummax`, `Pandas.gtNaT`, `Pandas.cumsumFrom`, `Pandas.cumsum`, `Pandas.colMin`, `Pandas.colMax`, `Pandas.mean`, `Coverage.AggRow`, `Coverage.overlapLabels`, `Coverage.dissolveRow`, `Coverage.overlapGroups`, `Coverage.withMetrics`, `Coverage.aggregatePoint`, `Coverage.aggregateObservations`, `Frames.Frame.assign`, `Frames.Frame.assigns`, `Frames.Frame.reads`, `Frames.Frame.dissolve`, `Frames.aggregateObservations`, `IeeeMean.kahanStep`, `IeeeMean.kahanSum`, `IeeeMean.groupMean`, `IeeeMean.meanEpoch`, `IeeeMean.dissolveRow`, `IeeeMean.aggregatePoint`, `IeeeMean.aggregateObservations`, `Store.Kit`, `Store.Prog`, `Store.new`, `Store.value`, `Store.mutate`, `Store.aggregateGroup`, `Store.aggregate`, `Store.Call.run` |
| `analysis/coverage.py` `_get_empty_reduce_frame` | `Frames.emptyReduce`, `Store.Call.run` |
| `analysis/coverage.py` `reduce_observations` | `Pandas.groupBy`, `Pandas.mean`, `Pandas.nanmean`, `Pandas.roundHalfEven`, `Grid.Reduced`, `Coverage.RedRow`, `Coverage.timedeltaSeconds`, `Coverage.nsToSeconds`, `Coverage.reduceObservations`, `Frames.Frame.dissolve`, `Frames.Frame.resetIndex`, `Frames.reduceObservations`, `IeeeMean.secondsOf`, `IeeeMean.kahanStep`, `IeeeMean.kahanSum`, `IeeeMean.groupMean`, `IeeeMean.wholePart`, `IeeeMean.timedeltaOf`, `IeeeMean.meanDuration`, `IeeeMean.reduceObservations`, `Store.Store`, `Store.new`, `Store.reduce`, `Store.Call.run` |
| `analysis/coverage.py` `grid_observations` | `Pandas.groupBy`, `Grid.GridRow`, `Grid.locSamples`, `Grid.npAverage`, `Grid.sjoin`, `Grid.gridRow`, `Grid.gridReduced`, `Coverage.timedeltaSeconds`, `Coverage.usToSeconds`, `Frames.Frame.dissolve`, `Frames.Frame.resetIndex`, `Frames.sjoin`, `Frames.gridReduced`, `Store.grid`, `Store.Call.run` |
| `analysis/dop.py` `compute_dop` | `Dop.Look`, `Dop.Look.x`, `Dop.Look.y`, `Dop.Look.z`, `Dop.isVisible`, `Dop.lookRow`, `Dop.matrixH`, `Dop.solve`, `Dop.value`, `Dop.dopAt`, `Dop.Row`, `Dop.computeDop` |
| `analysis/latency.py` `_get_empty_downlinks_frame` | `Frames.emptyDownlinks` |
| `analysis/latency.py` `collect_downlinks` | `Pandas.SortValues`, `Latency.Downlink`, `Latency.collectDownlinks`, `Frames.collectDownlinks`, `Collect.Listening`, `Collect.stationRun` |
| `analysis/latency.py` `_get_empty_latency_frame` | `Frames.emptyLatency` |
| `analysis/latency.py` `compute_latencies` | `Pandas.SortValues`, `Latency.LatRow`, `Latency.asofForward`, `Latency.latencyRow`, `Latency.computeLatencies`, `Frames.mergeAsof`, `Frames.Frame.rename`, `Frames.Frame.select`, `Frames.computeLatencies`, `Store.mutate`, `Store.latencies`, `Store.Call.run` |
| `analysis/latency.py` `_get_empty_reduce_frame` | `Frames.emptyReduceLatency`, `Store.Call.run` |
| `analysis/latency.py` `reduce_latencies` | `Pandas.nanmean`, `Grid.Reduced`, `Latency.RedLat`, `Latency.reduceLatencies`, `Frames.reduceLatencies`, `IeeeMean.secondsOf`, `IeeeMean.kahanSum`, `IeeeMean.groupMean`, `IeeeMean.timedeltaOf`, `IeeeMean.reduceLatencies`, `Store.reduceLatency`, `Store.Call.run` |
| `analysis/latency.py` `grid_latencies` | `Grid.GridRow`, `Grid.locSamples`, `Grid.npAverage`, `Grid.sjoin`, `Grid.gridRow`, `Grid.gridReduced`, `Frames.sjoin`, `Frames.gridReduced`, `Store.gridLatency`, `Store.Call.run` |
| `analysis/ro_coverage.py` `_collect_ro_series` | `Ro.sub`, `Ro.tangentPoint`, `Ro.tangentVelocity`, `Ro.sign`, `Ro.tangentSign`, `Ro.pitch`, `Ro.yaw`, `Ro.yawAccepted`, `Ro.valid`, `Ro.Sample`, `Ro.Arc`, `Ro.arcStep`, `Ro.collectArcs`, `Ro.Transmitter`, `Ro.Geodetic`, `Ro.sampleAt`, `Ro.collectSeries` |
| `analysis/ro_coverage.py` `_get_empty_ro_frame` | `Frames.emptyRo` |
| `analysis/ro_coverage.py` `collect_ro_observations` | `Ro.unit`, `Ro.along`, `Ro.across`, `Ro.up`, `Ro.Row`, `Ro.makeRow`, `Ro.collectRo`, `Pandas.SortValues`, `Frames.collectRo` |
| `analysis/track.py` `_get_empty_orbit_track` | `Frames.emptyOrbitTrack` |
| `analysis/track.py` `collect_orbit_track` | `GroundView.groundFootprint`, `Track.Sample`, `Track.Place`, `Track.Sky`, `Track.Record`, `Track.getItem`, `Track.Mask`, `Track.Clip`, `Track.Sample.point`, `Track.Sample.velocity`, `Track.validity`, `Track.asArray`, `Track.orbitRecords`, `Track.collectOrbitTrack`, `Swath.trackSwathWidth`, `Propagate.turnAxes`, `Propagate.earthFixed`, `Frames.collectOrbitTrack`, `Solar.lengthOf`, `Solar.angleBetween`, `Solar.solarBeta`, `Solar.erad`, `Solar.lineAndSphere`, `Solar.isSunlit` |
| `analysis/track.py` `_get_empty_ground_track` | `Frames.emptyGroundTrack` |
| `analysis/track.py` `_get_utm_epsg_code` | `Track.footprintRadius`, `Track.utmCode` |
| `analysis/track.py` `collect_ground_track` | `GroundView.groundFootprint`, `Track.Clip`, `Track.validity`, `Track.asArray`, `Track.MaskShape`, `Track.Ops`, `Track.MaskShape.target`, `Track.MaskShape.meets`, `Track.cull`, `Track.GroundRecord`, `Track.groundGeometries`, `Track.clipTrack`, `Track.collectGroundTrack`, `Frames.collectGroundTrack`, `Buffer.bufferTarget`, `Buffer.timeStep` |
| `analysis/track.py` `compute_ground_track` | `Track.Clip`, `Track.Row`, `Track.orbitId`, `Track.changes`, `Track.trackIds`, `Track.Key`, `Track.keyedRows`, `Track.groups`, `Track.mkLine`, `Track.continued`, `Track.moveBack`, `Track.segmentsOf`, `Track.meanSwath`, `Track.lineTrack`, `Track.rowsOf`, `Track.pointTrack`, `Track.computeGroundTrack` |
| `analysis/track.py` `collect_ground_pixels` | `Track.Clip`, `Track.Ops`, `Track.cull`, `Track.PixelRecord`, `Track.pixelRecords`, `Track.collectGroundPixels`, `Frames.collectGroundTrack`, `Buffer.timeStep` |
| `config.py` `load_yaml_config` | `Config.Yaml`, `Config.Document`, `Config.construct`, `Config.keywords`, `Config.load` |
| `generation/cells.py` `generate_equally_spaced_cells` | `Generation.gridStep`, `Generation.gridCells`, `IeeeCells.gridCells` |
| `generation/cells.py` `_generate_equally_spaced_cells` | `Generation.rectangle`, `Generation.CellRow`, `Generation.CellClip`, `Generation.gridCells'`, `IeeeCells.side`, `IeeeCells.gridCells`, `Grid.Cell` |
| `generation/points.py` `_compute_fibonacci_lattice_point_latitude` | `Generation.fibLatitude`, `IeeeLattice.latticeLatitude` |
| `generation/points.py` `_compute_fibonacci_lattice_point_longitude` | `Generation.fibLongitude`, `IeeeLattice.goldenRatio`, `IeeeLattice.latticeLongitude` |
| `generation/points.py` `generate_fibonacci_lattice_points` | `Generation.Mask`, `Generation.PointRow`, `Generation.Clip`, `Generation.getBounds`, `Generation.shiftedLongitude`, `Generation.fibonacciPoints`, `IeeeLattice.latticeShifted`, `IeeeLattice.latticePoints` |
| `generation/points.py` `generate_equally_spaced_points` | `Generation.gridStep`, `Generation.gridPoints`, `IeeeGrid.gridStep`, `IeeeGrid.gridPoints` |
| `generation/points.py` `_compute_equally_spaced_point_id` | `Generation.pyInt`, `Generation.pointId`, `IeeeGrid.turn`, `IeeeGrid.pointId` |
| `generation/points.py` `_get_bounds` | `Generation.getBounds` |
| `generation/points.py` `_generate_equally_spaced_indices` | `Generation.pyRange`, `Generation.Strips`, `Generation.gridIndices`, `IeeeCells.stripIndices`, `IeeeGrid.turn`, `IeeeGrid.gridIndices` |
| `generation/points.py` `_generate_equally_spaced_points` | `Generation.Clip`, `Generation.gridPoints'`, `IeeeGrid.gridPoints` |
| `schemas/instrument.py` `Instrument.get_swath_width` | `Swath.getSwathWidth` |
| `schemas/instrument.py` `Instrument.get_min_elevation_angle` | `Swath.getMinElevationAngle` |
| `schemas/instrument.py` `Instrument.compute_footprint` | `Instrument.regardRay` |
| `schemas/instrument.py` `Instrument.compute_footprint_center` | `Instrument.centerRay` |
| `schemas/instrument.py` `Instrument.is_valid_observation` | `Track.Sky`, `Track.Sample.subpoint`, `Instrument.PerTime`, `Instrument.PerTime.toList`, `Instrument.applyRequirement`, `Instrument.validObservation`, `Solar.erad`, `Solar.lineAndSphere`, `Solar.isSunlit` |
| `schemas/instrument.py` `PointedInstrument.get_cross_track_instantaneous_field_of_view` | `Instrument.Pointed.crossIfov` |
| `schemas/instrument.py` `PointedInstrument.get_along_track_instantaneous_field_of_view` | `Instrument.Pointed.alongIfov` |
| `schemas/instrument.py` `PointedInstrument.compute_footprint` | `Globe.Pointed.footprint` |
| `schemas/instrument.py` `PointedInstrument.compute_footprint_center` | `Instrument.Pointed.center` |
| `schemas/instrument.py` `PointedInstrument.compute_projected_pixel_position` | `Instrument.Pointed.pixel`, `Instrument.Pointed.pixelRay` |
| `schemas/instrument.py` `PointedInstrument.get_pixel_cone_and_clock_angle` | `Instrument.Pointed.crossOffset`, `Instrument.Pointed.alongOffset`, `Instrument.Pointed.coneClock` |
| `schemas/instrument.py` `PointedInstrument.compute_footprint_pixel_array` | `Instrument.Pointed.pixelArray`, `Instrument.Pointed.pixelArrays` |
| `schemas/orbit.py` `TwoLineElements.get_tle_count` | `Derive.getTleCount` |
| `schemas/orbit.py` `TwoLineElements.get_catalog_number` | `Text.digitsVal`, `Text.slice`, `Text.pyInt`, `Tle.getCatalogNumber` |
| `schemas/orbit.py` `TwoLineElements.get_classification` | `Tle.getClassification` |
| `schemas/orbit.py` `TwoLineElements.get_international_designator` | `Text.strip`, `Tle.getInternationalDesignator` |
| `schemas/orbit.py` `TwoLineElements.get_epoch` | `Epoch.newYear`, `Epoch.readEpoch`, `Epoch.getEpoch` |
| `schemas/orbit.py` `TwoLineElements.get_first_derivative_mean_motion` | `Text.unsigned`, `Text.pyFloat`, `Tle.getFirstDerivative` |
| `schemas/orbit.py` `TwoLineElements.get_second_derivative_mean_motion` | `Text.strip`, `Text.splitSign`, `Text.pyInt`, `Text.unsigned`, `Text.pyFloat`, `Tle.pseudoFloat`, `Tle.getSecondDerivative` |
| `schemas/orbit.py` `TwoLineElements.get_b_star` | `Text.strip`, `Text.splitSign`, `Tle.pseudoFloat`, `Tle.getBStar` |
| `schemas/orbit.py` `TwoLineElements.get_ephemeris_type` | `Text.pyInt`, `Tle.getEphemerisType` |
| `schemas/orbit.py` `TwoLineElements.get_element_set_number` | `Text.pyInt`, `Tle.getElementSetNumber` |
| `schemas/orbit.py` `TwoLineElements.get_inclination` | `Text.unsigned`, `Text.pyFloat`, `Tle.getInclination` |
| `schemas/orbit.py` `TwoLineElements.get_right_ascension_ascending_node` | `Tle.getRaan` |
| `schemas/orbit.py` `TwoLineElements.get_eccentricity` | `Text.strip`, `Tle.getEccentricity` |
| `schemas/orbit.py` `TwoLineElements.get_perigee_argument` | `Tle.getPerigeeArgument` |
| `schemas/orbit.py` `TwoLineElements.get_mean_anomaly` | `Tle.getMeanAnomaly` |
| `schemas/orbit.py` `TwoLineElements.get_mean_motion` | `Constellation.Lead.meanMotion`, `Tle.getMeanMotion`, `IeeeTle.tleTrainMembers` |
| `schemas/orbit.py` `TwoLineElements.get_orbit_period` | `Convert.tleOrbitPeriod` |
| `schemas/orbit.py` `TwoLineElements.get_revolution_number_at_epoch` | `Tle.getRevolutionNumber` |
| `schemas/orbit.py` `TwoLineElements.get_semimajor_axis` | `Geometry.tleSemimajorAxis` |
| `schemas/orbit.py` `TwoLineElements.get_altitude` | `Geometry.tleAltitude` |
| `schemas/orbit.py` `TwoLineElements.get_true_anomaly` | `Anomaly.getTrueAnomaly` |
| `schemas/orbit.py` `TwoLineElements.get_derived_orbit` | `Orbit.TleElements`, `Orbit.tleDerived`, `Derive.Record`, `Derive.derivedRecord`, `Derive.derivedLines`, `Derive.tleGetDerived`, `IeeeTle.fullTurn`, `IeeeTle.modTurn`, `IeeeTle.tleDerived` |
| `schemas/orbit.py` `TwoLineElements.as_skyfield` | not modelled |
| `schemas/orbit.py` `TwoLineElements.get_closest_tle_index` | `TleTime.searchsortedLeft`, `TleTime.closestIndex`, `TleTime.closestIndices`, `Cache.Object`, `Cache.toTle` |
| `schemas/orbit.py` `TwoLineElements.partition_by_tle_index` | `TleTime.halfDelta`, `TleTime.midpoints`, `TleTime.partitionByTle` |
| `schemas/orbit.py` `TwoLineElements.get_repeat_cycle` | `Convert.distance`, `Convert.searchRepeat`, `Session.Criteria`, `Session.CycleArgs`, `Session.criteria`, `Session.State`, `Session.Op`, `Session.Used`, `Session.cycleCall`, `Session.step`, `Session.run`, `Cache.getRepeatCycle`, `Cache.runCycle` |
| `schemas/orbit.py` `TwoLineElements.get_orbit_track` | `Session.Op`, `Session.Used`, `Session.step`, `Session.run`, `Propagate.Geocentric`, `Propagate.orbitTrackAt`, `Propagate.geocentrics`, `Propagate.orbitTrackList`, `TleTime.repeatTime`, `TleTime.propagatedTime` |
| `schemas/orbit.py` `TwoLineElements.get_observation_events` | `Session.Op`, `Session.Used`, `Session.step`, `Session.run`, `TleTime.repeatEvents`, `TleTime.observationEvents`, `TleTime.multiEvents`, `IeeeRepeat.numberCycles`, `IeeeRepeat.repeatEvents`, `IeeeRepeat.observationEvents` |
| `schemas/orbit.py` `TwoLineElements.to_tle` | `Session.run` |
| `schemas/orbit.py` `OrbitBase.get_mean_anomaly` | `Orbit.Circular` |
| `schemas/orbit.py` `OrbitBase.get_semimajor_axis` | `IeeeSso.ssoInclination`, `Orbit.Circular` |
| `schemas/orbit.py` `OrbitBase.get_mean_motion` | `Constellation.Lead.meanMotion`, `Convert.Molniya.meanMotion`, `IeeePeriod.meanMotion`, `Orbit.meanMotion`, `Orbit.Circular`, `IeeeDerived.keplerianTrainMembers` |
| `schemas/orbit.py` `OrbitBase.get_orbit_period` | `Convert.Molniya.orbitPeriod`, `Real.roundHalfEven`, `IeeePeriod.microseconds`, `IeeePeriod.orbitPeriod`, `Orbit.orbitPeriod`, `Orbit.Circular`, `IeeeDerived.keplerianTrainMembers` |
| `schemas/orbit.py` `CircularOrbit.get_derived_orbit` | `Ieee.lastPlace`, `Ieee.fl`, `Ieee.mod360`, `Ieee.derived`, `Real.npMod`, `Orbit.Circular.derived`, `IeeeWalker.DoubleLead.derived` |
| `schemas/orbit.py` `CircularOrbit.to_tle` | `Convert.Circular.satrec`, `Convert.Circular.toTle`, `Cache.Object`, `Cache.toTle`, `Cache.Op`, `Cache.step`, `Cache.run`, `Sharing.Change` |
| `schemas/orbit.py` `SunSynchronousOrbit.get_inclination` | `IeeeSso.ssoInclination`, `Orbit.Sso.inclination` |
| `schemas/orbit.py` `SunSynchronousOrbit.get_right_ascension_ascending_node` | `IeeeSso.ssoRaan`, `Orbit.Sso`, `Orbit.Sso.raan` |
| `schemas/orbit.py` `SunSynchronousOrbit.get_derived_orbit` | `IeeeSso.ssoDerived`, `Orbit.Sso.derived`, `IeeeWalker.DoubleLead.derived` |
| `schemas/orbit.py` `SunSynchronousOrbit.to_tle` | `Convert.Sso.satrec`, `Convert.Sso.toTle` |
| `schemas/orbit.py` `KeplerianOrbit.get_mean_anomaly` | `Orbit.Keplerian.meanAnomaly`, `IeeeDerived.keplerianDerived` |
| `schemas/orbit.py` `KeplerianOrbit.get_derived_orbit` | `Orbit.Keplerian.derived`, `IeeeDerived.keplerianDerived` |
| `schemas/orbit.py` `KeplerianOrbit.to_tle` | `Convert.epoch1949`, `Convert.daysSince1949`, `Convert.Satrec`, `Convert.Keplerian.satrec`, `Convert.replaceNul`, `Convert.exportTle`, `Convert.Keplerian.toTle`, `Epoch.day`, `Epoch.yearOf`, `Epoch.dayOfYear`, `Epoch.zfill`, `Epoch.epochColumns` |
| `schemas/orbit.py` `MolniyaOrbit.get_semimajor_axis` | `Convert.Tundra.semimajorAxis`, `Orbit.Molniya.semimajorAxis` |
| `schemas/orbit.py` `MolniyaOrbit.get_eccentricity` | `Orbit.Molniya.eccentricity` |
| `schemas/orbit.py` `MolniyaOrbit.get_mean_anomaly` | `Convert.Molniya.meanAnomaly`, `Convert.Tundra.meanAnomaly` |
| `schemas/orbit.py` `MolniyaOrbit.get_derived_orbit` | `Orbit.Molniya.make`, `Orbit.Molniya.derived` |
| `schemas/orbit.py` `MolniyaOrbit.to_tle` | `Convert.epoch1949`, `Convert.daysSince1949`, `Convert.Molniya.satrec`, `Convert.Tundra.satrec`, `Convert.replaceNul`, `Convert.exportTle`, `Convert.Molniya.toTle`, `Convert.Tundra.toTle` |
| `schemas/orbit.py` `TundraOrbit.get_eccentricity` | `Convert.Tundra.meanAnomaly`, `Convert.Tundra.satrec` |
| `schemas/orbit.py` `TundraOrbit.get_derived_orbit` | `Orbit.Tundra.derived` |
| `schemas/satellite.py` `Satellite.generate_members` | `Sharing.satelliteMembers` |
| `schemas/satellite.py` `TrainConstellation.get_delta_mean_anomaly` | `Constellation.Lead.meanMotion`, `Constellation.Train.days`, `Constellation.Train.deltaMeanAnomaly`, `IeeeTrain.trainDays`, `IeeeTrain.trainDeltaMean`, `IeeeTle.tleTrainMembers` |
| `schemas/satellite.py` `TrainConstellation.get_delta_raan` | `Constellation.Train.days`, `Constellation.Train.deltaRaan`, `IeeeTrain.trainDays`, `IeeeTrain.trainDeltaRaan`, `Sharing.generateMembers`, `IeeeTle.tleTrainMembers` |
| `schemas/satellite.py` `TrainConstellation.generate_members` | `Constellation.Lead.derived`, `Constellation.Train.members`, `Schema.Doc`, `Schema.Given`, `IeeeTrain.trainMembers`, `IeeeWalker.DoubleLead.derived`, `IeeeDerived.keplerianTrainMembers`, `Sharing.deepcopyList`, `Sharing.newSystem`, `Sharing.newOrbit`, `Sharing.member`, `Sharing.generateMembers`, `IeeeTle.tleTrainMembers` |
| `schemas/satellite.py` `WalkerConstellation.number_planes_le_number_satellites` | `Constellation.Walker.make`, `Schema.numAt`, `Schema.SysCls.check`, `Schema.readSys` |
| `schemas/satellite.py` `WalkerConstellation.relative_spacing_lt_number_planes` | `Constellation.Walker.make`, `Schema.SysCls.check`, `Schema.readSys` |
| `schemas/satellite.py` `WalkerConstellation.get_satellites_per_plane` | `Constellation.Walker.satellitesPerPlane`, `Ieee.satellitesPerPlane`, `IeeeWalker.walkerIncrements` |
| `schemas/satellite.py` `WalkerConstellation.get_delta_mean_anomaly_within_planes` | `Constellation.Walker.deltaWithin`, `IeeeWalker.walkerIncrements` |
| `schemas/satellite.py` `WalkerConstellation.get_delta_mean_anomaly_between_planes` | `Constellation.Walker.deltaBetween`, `IeeeWalker.walkerIncrements` |
| `schemas/satellite.py` `WalkerConstellation.get_delta_raan_between_planes` | `Constellation.Walker.deltaRaan`, `IeeeWalker.walkerIncrements`, `Sharing.generateMembers` |
| `schemas/satellite.py` `WalkerConstellation.generate_members` | `Constellation.Lead.derived`, `Constellation.Walker.increments`, `Constellation.Walker.members`, `IeeeWalker.DoubleLead.derived`, `IeeeWalker.walkerIncrements`, `IeeeWalker.walkerMembers`, `IeeeDerived.keplerianWalkerMembers`, `Sharing.deepcopyList`, `Sharing.newOrbit`, `Sharing.member`, `Sharing.generateMembers`, `IeeeTle.tleWalkerMembers` |
| `schemas/satellite.py` `MOGConstellation.generate_members` | `Real.arctan2`, `Mog.Mog.a`, `Mog.Mog.delta`, `Mog.Mog.e`, `Mog.Mog.s`, `Mog.Mog.l0`, `Mog.Mog.theta`, `Mog.Mog.l`, `Mog.Mog.i`, `Mog.Mog.node`, `Mog.Mog.pNode`, `Mog.Mog.t`, `Mog.Mog.pPeri`, `Mog.Mog.w`, `Mog.Mog.n`, `Mog.keplerLoop`, `Mog.Mog.nu`, `Mog.Mog.memberOrbit`, `Mog.Mog.members`, `Vec.V3`, `Vec.add`, `Vec.smul`, `Vec.dot`, `Vec.cross`, `Py.PyErr`, `IeeeKepler.Sine`, `IeeeKepler.tolerance`, `IeeeKepler.keplerStep`, `IeeeKepler.keplerLoop`, `IeeeKepler.eccentricAnomaly`, `Sharing.deepcopyList`, `Sharing.newOrbit`, `Sharing.member`, `Sharing.generateMembers` |
| `schemas/satellite.py` `SOCConstellation.generate_walker` | `Soc.mathAsin`, `Soc.ceilTurn`, `Soc.Soc.walker`, `IeeeSoc.mathAsin`, `IeeeSoc.ceilTurn`, `IeeeSoc.socElevation`, `IeeeSoc.socWalker`, `Sharing.generateWalker` |
| `schemas/satellite.py` `SOCConstellation.generate_members` | `Soc.Soc.walker`, `Soc.Soc.members`, `Sharing.socMembers` |
| `utils.py` `mean_anomaly_to_true_anomaly` | `Ieee.radianFactor`, `Ieee.degreeFactor`, `Ieee.thereAndBack`, `Real.radians`, `Real.degrees`, `IeeeAnomaly.meanToTrue`, `Orbit.meanToTrue` |
| `utils.py` `true_anomaly_to_mean_anomaly` | `Ieee.radianFactor`, `Ieee.degreeFactor`, `Ieee.thereAndBack`, `IeeeAnomaly.fourth`, `IeeeAnomaly.trueToMean`, `Orbit.trueToMean` |
| `utils.py` `compute_number_samples` | `Geometry.sampleArea`, `Geometry.numberSamples`, `IeeeSamples.pi`, `IeeeSamples.sampleHeight`, `IeeeSamples.sampleArea`, `IeeeSamples.numberSamples` |
| `utils.py` `swath_width_to_field_of_regard` | `Geometry.sinRho`, `Geometry.swathToFor`, `IeeeSoc.swathToFor` |
| `utils.py` `swath_width_to_field_of_view` | `IeeeFov.viewCentral`, `IeeeFov.edgeAngle`, `IeeeFov.swathToFov`, `Geometry.swathToFov` |
| `utils.py` `field_of_regard_to_swath_width` | `Geometry.sinRho`, `Geometry.forToSwath`, `IeeeViewing.npArcsin`, `IeeeViewing.npArccos`, `IeeeViewing.sinRho`, `IeeeViewing.sinHalf`, `IeeeViewing.forToSwath` |
| `utils.py` `compute_field_of_regard` | `Geometry.sinRho`, `Geometry.fieldOfRegard`, `IeeeViewing.npArcsin`, `IeeeViewing.sinRho`, `IeeeViewing.fieldOfRegard` |
| `utils.py` `compute_min_elevation_angle` | `Geometry.sinRho`, `Geometry.minElevation`, `IeeeViewing.npArccos`, `IeeeViewing.sinRho`, `IeeeViewing.sinHalf`, `IeeeViewing.minElevation` |
| `utils.py` `compute_orbit_period` | `IeeePeriod.cube`, `IeeePeriod.periodSeconds`, `Orbit.orbitPeriodSeconds` |
| `utils.py` `compute_max_access_time` | `Geometry.maxAccessTime`, `IeeePeriod.maxAccessSeconds` |
| `utils.py` `compute_ground_velocity` | `IeeeGround.angularRate`, `IeeeGround.groundVelocity`, `Geometry.groundVelocity` |
| `utils.py` `along_track_distance_to_access_time` | `IeeeGround.angularRate`, `IeeeGround.alongTrackToAccess`, `Geometry.alongTrackToAccess` |
| `utils.py` `access_time_to_along_track_distance` | `IeeeGround.angularRate`, `IeeeGround.accessToAlongTrack`, `Geometry.accessToAlongTrack` |
| `utils.py` `compute_projected_ray_position` | `Instrument.State`, `Instrument.State.v`, `Instrument.State.b`, `Instrument.State.n`, `Instrument.rayOf`, `Instrument.ellipse`, `Instrument.corner`, `Instrument.rectAlong`, `Instrument.rectCross`, `Instrument.ray`, `Instrument.Globe`, `Instrument.project`, `Times.projectTimes`, `Globe.Axes`, `Globe.earthAxes`, `Globe.Axes.form`, `Globe.surfpt`, `Globe.Axes.polar`, `Globe.limbCut`, `Globe.arcAngle`, `Globe.limbNormal`, `Globe.limbPoint`, `Globe.earth` |
| `utils.py` `compute_footprint` | `Repair.splitProjected`, `Session.Op`, `Session.Used`, `Session.step`, `Session.run`, `Instrument.corner`, `Instrument.linspace`, `Instrument.linspaceOpen`, `Instrument.footprintAngles`, `Instrument.footprintPoints`, `Times.PerTime.size`, `Times.PerTime.item`, `Times.PerTime.number`, `Times.footprintTimes`, `Globe.Pointed.footprint` |
| `utils.py` `compute_limb` | `Repair.splitProjected`, `Times.limbTimes`, `Globe.earthAxes`, `Globe.Ellipse`, `Globe.EdLimb`, `Globe.limbVertices` |
| `utils.py` `buffer_footprint` | `Repair.splitProjected`, `GroundView.DrawnAt`, `GroundView.bufferFootprint` |
| `utils.py` `buffer_target` | `Buffer.project`, `Buffer.planar`, `Buffer.bufferDistance`, `Buffer.inBuffer`, `Buffer.bufferTarget` |
| `utils.py` `project_polygon_to_elevation` | `Polygon.Coord`, `Polygon.Polygon`, `Polygon.Shape`, `Polygon.ring`, `Polygon.mkPolygon`, `Polygon.projectPolygon`, `Polygon.project`, `Repair.projectGeom` |
| `utils.py` `_wrap_polygon_over_north_pole` | `Polygon.Shapely`, `Polygon.wrapNorthCoord`, `Polygon.wrapNorth` |
| `utils.py` `_split_polygon_north_pole` | `Polygon.Shape.parts`, `Polygon.Line`, `Polygon.Shapely`, `Polygon.forParts`, `Polygon.splitParts`, `Polygon.splitNorth` |
| `utils.py` `_wrap_polygon_over_south_pole` | `Polygon.wrapSouthCoord`, `Polygon.wrapSouth` |
| `utils.py` `_split_polygon_south_pole` | `Polygon.Line`, `Polygon.forParts`, `Polygon.splitParts`, `Polygon.splitSouth` |
| `utils.py` `_wrap_polygon_over_antimeridian` | `Polygon.wrapAntimeridian`, `Polygon.wrapAntimeridianShape` |
| `utils.py` `_convert_collection_to_polygon` | `Polygon.Geom`, `Polygon.Geom.polygons`, `Polygon.Geom.multis`, `Polygon.ofList`, `Polygon.convertCollection` |
| `utils.py` `_split_polygon_antimeridian` | `Polygon.Line`, `Polygon.Shapely`, `Polygon.shiftFrom`, `Polygon.shifts`, `Polygon.interpFrom`, `Polygon.interp`, `Polygon.unwrapExterior`, `Polygon.unwrapInterior`, `Polygon.unwrap`, `Polygon.smallSteps`, `Polygon.poleLatitude`, `Polygon.splitPole`, `Polygon.splitAntimeridian`, `Polygon.forParts` |
| `utils.py` `split_polygon` | `Polygon.splitPolygon`, `Repair.Shape.geom`, `Repair.Repair`, `Repair.repair`, `Repair.splitRepaired` |
| `utils.py` `normalize_geometry` | `Repair.normalizeShape`, `Store.normalize`, `Store.normalizeSeries` |
| `utils.py` `zero_pad` | `Constellation.zeroPad`, `Text.digitChar`, `Text.dec`, `Text.zfill` |
| `utils.py` `is_even_length_list` | `Py.PyErr`, `Tle.isEvenLength` |
| `utils.py` `is_valid_tle` | `Text.isDigit`, `Text.digitVal`, `Text.pyInt`, `Py.PyErr`, `Py.require`, `Tle.lit`, `Tle.spDigit`, `Tle.upper`, `Tle.spUpper`, `Tle.catalogFirst`, `Tle.spSign`, `Tle.sign`, `Tle.spZeroSign`, `Tle.rep`, `Tle.matchSeq`, `Tle.line1Head`, `Tle.line1AltA`, `Tle.line1AltB`, `Tle.line1Tail`, `Tle.matchLine1`, `Tle.line2Pattern`, `Tle.matchLine2`, `Tle.weight`, `Tle.checksum`, `Tle.lastDigit`, `Tle.checkPair`, `Tle.isValidTle` |
| `utils.py` `is_chronological_tle` | `Epoch.readEpoch`, `Tle.epochsOf`, `Tle.nonDecreasing`, `Tle.isChronological` |

## Axioms of each theorem

Output of `#print axioms` for every theorem named in MANIFEST.json.

* propext, Classical.choice, Quot.sound: `C01_components`, `C01_components_unique`, `C02_partition`, `C03_access_revisit`, `C04_order_independent`, `C05_idempotent`, `C06_reduce`, `C06_revisit_missing_iff`, `C07_weighted_mean_false`, `C07_key_error`, `C07_weighted_mean_partial`, `C08_visible_exact_partial`, `C08_visible_disjoint`, `C08_visible_exact_false`, `C09_well_formed`, `C10_collect`, `C10_fixed_access_partial`, `C10_fixed_access_exact`, `C10_fixed_access_false`, `C11_multi_partial`, `C11_multi_false`, `C11_empty_list_raises`, `C12_earliest_downlink_partial`, `C12_earliest_downlink_false`, `C13_latency`, `C14_monotone`, `C14_latency_value_false`, `C15_reduce`, `C17_partition_false`, `C17_times_partial`, `C17_first_part_partial`, `C17_later_parts_off_by_one`, `C18_accepted_iff`, `C19_digit_changed`, `C19_not_constructed`, `C20_written_accepted`, `C20_round_trip_partial`, `C20_negative_false`, `C21_readable_false`, `C21_readable_partial`, `C24_repeat_time`, `C25_repeat_events`, `C25_rounded_events`, `C25_rounded_events_false`, `C26_multi_events`, `C27_walker_names`, `C27_train_names`, `C27_mog_names`, `C28_planes_partial`, `C28_every_plane_iff_partial`, `C28_even_planes`, `C28_every_plane_false`, `C29_pattern_partial`, `C29_keplerian_false`, `C30_accepted_iff`, `C30_values`, `C31_circular`, `C31_sso`, `C31_compose`, `C31_sso_compose`, `C31_zero`, `C32_derived_valid_partial`, `C32_derived_valid_false`, `C33_molniya_partial`, `C33_tundra_partial`, `C33_period_false`, `C34_ground_track`, `C35_terminates`, `C35_answer`, `C35_member`, `C36_geometry`, `C36_generated`, `C36_generated_false`, `C37_streets`, `C38_lattice`, `C38_last_gap`, `C39_mask_partial`, `C39_mask_false`, `C40_points_partial`, `C40_cells_partial`, `C40_strips_partial`, `C40_points_false`, `C41_points`, `C41_step`, `C42_mask_sound`, `C42_mask_partial`, `C42_mask_false`, `C43_cells`, `C44_area`, `C44_monotone_partial`, `C44_positive_partial`, `C44_positive_false`, `C45_for_swath_for`, `C45_swath_for_swath`, `C45_geometry`, `C46_elevation`, `C46_field_of_regard`, `C47_bounds`, `C47_monotone_partial`, `C47_monotone_false`, `C48_bounds_pass`, `C48_range`, `C49_period_grows`, `C49_mean_motion`, `C49_semimajor_exact`, `C49_semimajor`, `C50_round_trip_partial`, `C50_polar_false`, `C50_polar_rounded_false`, `C50_monotone_false`, `C51_coincide`, `C51_symmetry`, `C52_project`, `C53_exterior`, `C53_interior`, `C53_interior_false`, `C54_turns`, `C54_wrap`, `C54_wrap_fails`, `C54_crossing`, `C54_split`, `C55_north`, `C55_south_partial`, `C55_south_false`, `C55_split_north`, `C55_split_south_partial`, `C56_flatten_partial`, `C56_flatten_false`, `C57_arcs`, `C57_series`, `C58_tangent_point`, `C59_tangent_velocity`, `C60_yaw_partial`, `C60_yaw_false`, `C60_wide_partial`, `C61_rows`, `C62_kinds`, `C62_order`, `C62_scale`, `C63_more_satellites`, `C63_settings`, `C63_rows`, `C64_present_partial`, `C64_present_false`, `C64_geometry_false`, `C64_three`, `C65_scalar`, `C65_vector`, `C65_short_false`, `C66_array`, `C66_times`, `C66_time`, `C66_symmetric`, `C66_spacing`, `C66_centres`, `C66_tile_partial`, `C66_along_tile_partial`, `C66_overlap_false`, `C66_along_overlap_false`, `C66_edges`, `C66_edges_false`, `C66_cone_clock`, `C67_direction_partial`, `C67_cone_false`, `C68_sides_partial`, `C68_square_partial`, `C68_wide_false`, `C68_long_false`, `C68_count_false`, `C68_angle`, `C84_points`, `C69_unmasked`, `C69_masked_partial`, `C69_order_false`, `C69_frame_false`, `C70_unsplit_partial`, `C70_track_partial`, `C70_dropped_false`, `C70_misplaced_false`, `C70_antimeridian_false`, `C70_single_false`, `C70_unwrap`, `C70_longitudes_partial`, `C70_longitudes_false`, `C71_code`, `C71_polar`, `C72_valid`, `C72_error_partial`, `C72_error_false`, `C72_refused`, `C72_import`, `C73_downlinks`, `C74_near_reference_partial`, `C74_near_reference_false`, `C74_anomaly_ignored`, `C75_cover_partial`, `C75_cover_false`, `C76_crossing_time`, `C76_precession`, `C77_rising`, `C77_series`, `C78_angles`, `C79_latitude_false`, `C80_split_polygon_partial`, `C80_repaired_partial`, `C80_heights_false`, `C81_clock_false`, `C81_angle_false`, `C82_aft`, `C82_left_false`, `C82_angle_false`, `C83_centre`, `C83_roll_partial`, `C83_roll_false`, `C83_pitch_partial`, `C83_pitch_false`, `C84_ellipse`, `C84_vertices`, `C84_regard_partial`, `C84_centre`, `C84_wide_false`, `C85_footprints`, `C85_circles`, `C85_pixels`, `C85_refused`, `C86_footprints_partial`, `C86_single`, `C86_series_false`, `C86_circles_false`, `C87_periods`, `C87_samples`, `C87_keys`, `C88_orbit`, `C88_start_false`, `C88_line_false`, `C89_covers`, `C89_orbits`, `C89_dissolved`, `C89_point`, `C89_refused`, `C90_circular`, `C90_sun_synchronous`, `C90_keplerian_partial`, `C90_molniya_partial`, `C90_tundra_partial`, `C90_eccentric_false`, `C90_epoch_false`, `C91_circular`, `C91_sun_synchronous`, `C91_keplerian_partial`, `C91_molniya_false`, `C92_molniya`, `C92_tundra_false`, `C92_eccentricity_false`, `C93_first_repeat`, `C94_nadir`, `C94_half_partial`, `C94_look_false`, `C95_meridian_partial`, `C95_latitude_false`, `C95_order_false`, `C96_total_access`, `C96_monotone`, `C96_bounded`, `C96_reduced`, `C97_longest_partial`, `C97_outside_false`, `C97_mean_false`, `C98_observations`, `C98_multi`, `C98_downlinks`, `C98_reduced`, `C98_reduced_latencies`, `C98_coverage_pipeline`, `C98_latency_pipeline`, `C98_tracks_false`, `C98_aggregate_false`, `C98_latencies_false`, `C98_aggregated_latencies_false`, `C98_grid_false`, `C99_list`, `C99_nearest`, `C99_single`, `C100_near_partial`, `C100_reported`, `C100_iff`, `C100_drift`, `C100_sun_synchronous_false`, `C101_near_partial`, `C101_fixed_plane_partial`, `C101_sun_synchronous_false`, `C102_total_in_view`, `C102_at_most_in_view`, `C102_rows_in_view`, `C102_fixed_false`, `C103_mean_anomaly_partial`, `C103_true_anomaly_partial`, `C103_round_trip_partial`, `C103_true_anomaly_false`, `C103_mean_anomaly_false`, `C104_object`, `C104_satellite`, `C104_reload`, `C104_architecture`, `C104_instrument_data`, `C104_pointed_false`, `C104_elliptic_refused`, `C104_mutual_group_false`, `C104_streets_refused`, `C104_streets_false`, `C105_orbits_partial`, `C105_orbits_false`, `C105_molniya_false`, `C106_given_epoch`, `C106_default_epoch_false`, `C107_in_sight`, `C107_in_sight_partial`, `C107_footprint`, `C107_center`, `C107_limb`, `C107_steep_false`, `C108_first_met`, `C108_footprint`, `C108_outside_false`, `C109_limb`, `C109_plane`, `C109_all`, `C110_middle`, `C110_beyond_false`, `C110_missed_false`, `C111_regard`, `C111_altitude_false`, `C111_elevation_false`, `C112_equatorial_partial`, `C112_inclined`, `C112_kept`, `C112_long_false`, `C113_same_places_partial`, `C113_beyond_false`, `C114_cap_partial`, `C114_latitude_false`, `C114_order_false`, `C115_unturned_partial`, `C115_across`, `C115_along`, `C115_turned_false`, `C116_aggregate`, `C116_reduce`, `C116_reduce_latencies`, `C116_latencies`, `C116_concat`, `C117_stages_partial`, `C117_reduced`, `C117_epoch_false`, `C118_consecutive`, `C118_minimum_false`, `C118_within_false`, `C119_only_seen_partial`, `C119_parallel`, `C119_seen_false`, `C119_everywhere_false`, `C120_swath_elevation`, `C120_instrument`, `C120_track`, `C120_regard`, `C120_wide_false`, `C121_members`, `C121_streets`, `C122_inputs`, `C122_answer`, `C122_again`, `C122_normalize_false`, `C123_derived_partial`, `C123_digits`, `C123_nothing`, `C123_identity_false`, `C124_height`, `C124_same_orbit`, `C124_elements`, `C125_sunlit`, `C125_beta`, `C126_solar_time`, `C126_rate`, `C126_crossing`, `C127_amplification`, `C127_bound`, `C128_turn`, `C129_best`, `C130_separation`, `C131_bands`, `C132_cover`, `C133_streets_partial`, `C133_streets_false`, `C133_touching_false`, `C134_coverage`, `C134_latency`, `C135_order_partial`, `C135_order_false`, `C136_account`, `C137_wider_partial`, `C137_fixed_false`, `C137_test_false`, `C138_read`, `C138_written_partial`, `C138_century_false`, `C138_order`, `C138_order_false`, `C139_approach_partial`, `C139_meet_iff_partial`, `C139_same_plane_partial`, `C139_streets_false`, `C139_walker_false`, `C140_valid_iff_partial`, `C140_forward_partial`, `C140_close`, `C140_backward_false`, `C140_nothing_false`, `C141_per_plane_partial`, `C141_per_plane_false`, `C142_unique_iff_partial`, `C142_unique_partial`, `C142_part_false`, `C143_mutual_orbit`, `C144_alike_partial`, `C144_places_partial`, `C144_star_false`, `C145_monotone_partial`, `C145_accuracy_partial`, `C145_small_false`, `C146_lattice`, `C147_mask_partial`, `C148_min_elevation`, `C148_field_of_regard`, `C148_round_trip`, `C148_swath`, `C148_below_false`, `C149_circular`, `C149_sun_synchronous`, `C149_keplerian_partial`, `C149_eccentric_false`, `C150_rows`, `C150_number`, `C150_total`, `C150_contacts`, `C150_delivery`, `C150_fixed_false`, `C151_points`, `C151_disjoint`, `C151_cover`, `C152_lattice`, `C152_grid_partial`, `C152_close`, `C152_grid_false`, `C153_terminates`, `C153_answer`, `C154_iff`, `C154_reduced`, `C154_redundant`, `C154_epoch_false`, `C155_returns`, `C155_rows`, `C155_samples`, `C155_conserved`, `C156_wider`, `C156_transmitters`, `C157_revisit`, `C157_mean_revisit`, `C157_latency`, `C157_mean_latency`, `C158_reduce`, `C158_latency`, `C158_exact`, `C158_example`, `C159_epoch`, `C159_within`, `C159_within_false`, `C160_observed`, `C160_total`, `C160_settings`, `C161_contact`, `C161_pass`, `C161_delivery`, `C162_fewer`, `C162_altitude`, `C162_nine`, `C162_beyond_false`, `C162_accepted_false`, `C163_exact`, `C163_values`, `C163_system`, `C163_orbits`, `C163_walker`, `C163_sense_false`, `C164_current_partial`, `C164_stored`, `C164_constant`, `C164_stale_false`, `C165_over_partial`, `C165_again_partial`, `C166_positions`, `C166_one`, `C166_footprints_partial`, `C166_limbs`, `C166_single_false`, `C166_none_false`, `C167_valid`, `C167_unchanged`, `C167_polygonal_partial`, `C167_normalize`, `C167_line_false`, `C168_period`, `C168_period_mono`, `C168_mean_motion`, `C168_access`, `C168_access_mono`, `C169_longitude`, `C169_hemisphere`, `C170_row`, `C170_pass`, `C171_revisit`, `C171_gap`, `C172_orbits`, `C172_cycle`, `C173_row`, `C173_pass`, `C174_streets_partial`, `C174_tiny`, `C174_small_false`, `C175_swath`, `C176_field_of_view`, `C176_edges`, `C176_point`, `C177_velocity`, `C177_distance`, `C177_time`, `C177_mono`, `C178_true`, `C178_mean`, `C178_round_trip`, `C178_kepler`, `C179_inclination`, `C179_mono`, `C179_below`, `C179_raan`, `C179_derived`, `C179_top_false`, `C180_members`, `C180_distinct`, `C180_sso`, `C181_members_partial`, `C181_apart_partial`, `C181_members_false`, `C182_valid_partial`, `C182_close`, `C182_valid_false`, `C183_members_partial`, `C183_distinct`, `C184_members_partial`, `C184_apart_partial`, `C185_derived`, `C185_walker`, `C185_turn_false`, `C186_train`, `C187_distinct`, `C188_apart`, `C188_short_false`

* propext: `C18_odd_index_error`, `C22_cached_partial`, `C22_not_lazy_partial`, `C22_assignment_false`, `C23_repeat_cycle_partial`, `C23_repeat_cycle_false`, `C98_tracks_partial`, `C121_satellite_false`, `C121_walker_false`, `C122_normalize_series`

* propext, Quot.sound: `C16_closest`, `C16_closest_list`, `C18_unchanged`

* none: `C98_ro`

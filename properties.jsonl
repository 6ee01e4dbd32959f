{"id": "C01", "title": "Aggregated observations are the connected components of the observation intervals", "statement": "For the frame returned by aggregate_observations and each point_id: every output interval [start, end] is covered, at every instant, by input observations of that point; every input interval of that point lies inside an output interval of that point; and output intervals of one point are listed in time order with each end strictly before the next start (touching or overlapping observations are merged, separated ones are not).", "quantifier": "every observation frame (any number of points, satellites, rows, any overlap pattern, any row order) whose rows have start <= end, and every conforming sort algorithm", "why_tests_cant": "Overlap patterns are unbounded: chains, nesting, ties, shared end points. A test only fixes a few patterns.", "anchors": [{"file": "src/tatc/analysis/coverage.py", "symbols": ["aggregate_observations"]}]}
{"id": "C02", "title": "Aggregation partitions the observations", "statement": "aggregate_observations assigns every input observation to exactly one output row; each row has the smallest start, largest end and mean epoch of its observations and joins exactly their satellite and instrument names, in order of start; the mean epoch lies between the row's start and end when the inputs' epochs do.", "quantifier": "every observation frame and every conforming sort algorithm", "why_tests_cant": "Conservation of records over arbitrary frames cannot be sampled.", "anchors": [{"file": "src/tatc/analysis/coverage.py", "symbols": ["aggregate_observations"]}]}
{"id": "C03", "title": "Access and revisit times tile the observed period", "statement": "In the output of aggregate_observations, access = end - start >= 0; revisit is missing exactly for the first row of each point and otherwise equals start minus the previous row's end and is strictly positive; for each point the access and revisit times sum to last end minus first start.", "quantifier": "every observation frame whose rows have start <= end", "why_tests_cant": "The telescoping identity is over lists of any length; off-by-one in the shift across points shows only at group boundaries.", "anchors": [{"file": "src/tatc/analysis/coverage.py", "symbols": ["aggregate_observations"]}]}
{"id": "C04", "title": "Aggregation does not depend on row order", "statement": "Permuting the rows given to aggregate_observations, or using another sort algorithm that orders by start, changes neither the point_id, start, end, access, revisit or epoch columns of the result.", "quantifier": "every observation frame, every permutation of it, every pair of conforming sorts (stable or not)", "why_tests_cant": "n! permutations and unstable tie orders.", "anchors": [{"file": "src/tatc/analysis/coverage.py", "symbols": ["aggregate_observations"]}]}
{"id": "C05", "title": "Aggregation is idempotent", "statement": "Applying aggregate_observations to its own output returns the same rows.", "quantifier": "every observation frame whose rows have start <= end", "why_tests_cant": "Fixed-point law over all frames.", "anchors": [{"file": "src/tatc/analysis/coverage.py", "symbols": ["aggregate_observations"]}]}
{"id": "C06", "title": "Reduced observations summarise each point once", "statement": "reduce_observations returns one row per distinct point_id, in increasing order; samples equals the number of aggregated rows of the point and sums to the number of input rows; access (revisit) is the mean of the present access (revisit) values to within half a microsecond and lies between the smallest and the largest of them; revisit is missing exactly when the point has no revisit value, which for aggregated frames means exactly one row.", "quantifier": "every aggregated frame", "why_tests_cant": "Any number of points and rows, missing values anywhere.", "anchors": [{"file": "src/tatc/analysis/coverage.py", "symbols": ["reduce_observations", "aggregate_observations"]}]}
{"id": "C07", "title": "Gridded observations are sample-weighted means of the points in a cell", "statement": "grid_observations (grid_latencies) gives each cell the number of samples of its contained points and the sample-weighted mean of their access and revisit (latency) values, for any cell frame and any reduced frame.", "quantifier": "every cell frame, every reduced frame, every containment relation", "why_tests_cant": "The weights are found through row labels; the label coincidences that make a test pass are not general.", "anchors": [{"file": "src/tatc/analysis/coverage.py", "symbols": ["grid_observations"]}, {"file": "src/tatc/analysis/latency.py", "symbols": ["grid_latencies"]}]}
{"id": "C08", "title": "Visible intervals are exactly the visible times", "statement": "For an event list produced by a visibility signal over [start, end] (rises and sets alternate, in time order), the intervals returned for a point and satellite contain an instant of (start, end) between events exactly when the satellite is visible then.", "quantifier": "every alternating rise/set history with any number of passes, starting and ending either visible or not, passes not longer than twice the maximum access time", "why_tests_cant": "Unbounded number of passes and all four boundary phases.", "anchors": [{"file": "src/tatc/analysis/coverage.py", "symbols": ["_get_visible_interval_series"]}]}
{"id": "C09", "title": "Visible intervals are well formed for any event list", "statement": "Every interval returned for any event list (including duplicated, missing or unpaired rise/set events) lies in [start, end] and has left <= right; intervals come out in order of their left end.", "quantifier": "every list of events in non-decreasing time order within [start, end]", "why_tests_cant": "Malformed event sequences arise from repeat-cycle folding and TLE partitions and are not enumerable.", "anchors": [{"file": "src/tatc/analysis/coverage.py", "symbols": ["_get_visible_interval_series"]}]}
{"id": "C10", "title": "Collected observations satisfy the access-time requirement", "statement": "collect_observations returns one row per visible interval whose length is at least the instrument's minimum access time, in the same order; with variable access time start and end are the interval's ends; with fixed access time the row is centred on the interval, lies inside it and lasts exactly the minimum access time; epoch lies between start and end.", "quantifier": "every list of visible intervals, every minimum access time >= 0, both access-time modes", "why_tests_cant": "Rounding of odd microsecond values and boundary equality are measure-zero in samples.", "anchors": [{"file": "src/tatc/analysis/coverage.py", "symbols": ["collect_observations"]}, {"file": "src/tatc/schemas/instrument.py", "symbols": ["Instrument"]}]}
{"id": "C11", "title": "Multi-satellite collection loses and invents nothing", "statement": "collect_multi_observations returns exactly the rows of collect_observations over every satellite and instrument index, each once, ordered by start, and an empty frame when there are none.", "quantifier": "every list of satellites and instruments", "why_tests_cant": "Any number of satellites, any multiplicities.", "anchors": [{"file": "src/tatc/analysis/coverage.py", "symbols": ["collect_multi_observations"]}]}
{"id": "C12", "title": "Each observation is delivered by the earliest eligible downlink", "statement": "compute_latencies returns exactly one row per observation; its downlink is one of the same satellite that starts at or after the observation's end, no other such downlink starts earlier, and the fields are missing exactly when the satellite has no such downlink.", "quantifier": "every observation frame and every downlink frame, any satellites, ties allowed", "why_tests_cant": "As-of join boundary (equality, ties, other satellites) over all frames.", "anchors": [{"file": "src/tatc/analysis/latency.py", "symbols": ["compute_latencies"]}]}
{"id": "C13", "title": "Latency is never negative and rows are ordered by observation time", "statement": "In the output of compute_latencies latency = downlinked - observed where present, it is non-negative when every epoch lies within its own interval, and rows are ordered by observed time.", "quantifier": "every observation and downlink frame with start <= epoch <= end", "why_tests_cant": "Universal inequality over all frames.", "anchors": [{"file": "src/tatc/analysis/latency.py", "symbols": ["compute_latencies"]}]}
{"id": "C14", "title": "Delaying or adding downlinks changes latency monotonically", "statement": "Adding downlink opportunities never makes any observation's downlink start later and never turns a delivered observation into an undelivered one.", "quantifier": "every observation frame and every pair of downlink frames with one contained in the other", "why_tests_cant": "Relational property between two runs.", "anchors": [{"file": "src/tatc/analysis/latency.py", "symbols": ["compute_latencies"]}]}
{"id": "C15", "title": "Reduced latencies summarise each point once", "statement": "reduce_latencies returns one row per distinct point_id in increasing order with the number of observations of that point and the mean of its present latencies (to within half a microsecond); observations that are never downlinked contribute to samples but not to the mean.", "quantifier": "every latency frame", "why_tests_cant": "Missing values anywhere, any number of points.", "anchors": [{"file": "src/tatc/analysis/latency.py", "symbols": ["reduce_latencies"]}]}
{"id": "C16", "title": "The element set used for a time is the one with the nearest epoch", "statement": "get_closest_tle_index returns a valid index whose epoch is at least as near to the given time as every other element set's epoch; a list of times gives the list of answers for each time.", "quantifier": "every chronological list of element-set epochs of any length, every time or list of times", "why_tests_cant": "Any number of element sets; midpoints and out-of-range times.", "anchors": [{"file": "src/tatc/schemas/orbit.py", "symbols": ["TwoLineElements.get_closest_tle_index"]}]}
{"id": "C17", "title": "A time partition uses the nearest element set throughout each part", "statement": "partition_by_tle_index(start, end) returns times that begin with start, end with end, never decrease, and paired indices such that the element set named for each part is the nearest to every time strictly inside that part.", "quantifier": "every chronological epoch list, every start <= end", "why_tests_cant": "Any number of element sets inside the window.", "anchors": [{"file": "src/tatc/schemas/orbit.py", "symbols": ["TwoLineElements.partition_by_tle_index"]}]}
{"id": "C18", "title": "Accepted element sets are well formed", "statement": "A TwoLineElements object can be constructed only from an even number of lines, each of 69 characters, line 1 followed by line 2, with correct checksums, in order of epoch; and every list with these features and the column syntax is accepted.", "quantifier": "every list of strings", "why_tests_cant": "All strings.", "anchors": [{"file": "src/tatc/schemas/orbit.py", "symbols": ["TwoLineElements"]}, {"file": "src/tatc/utils.py", "symbols": ["is_valid_tle", "is_even_length_list", "is_chronological_tle"]}]}
{"id": "C19", "title": "A corrupted digit is always rejected", "statement": "Changing any single digit of an accepted element-set line to another digit makes is_valid_tle false.", "quantifier": "every accepted pair of lines, every position holding a digit, every other digit", "why_tests_cant": "69 columns x 9 digits x all element sets.", "anchors": [{"file": "src/tatc/utils.py", "symbols": ["is_valid_tle"]}]}
{"id": "C20", "title": "Element-set accessors read the fields that were written", "statement": "For every pair of lines written according to the standard column layout, the accessors (catalog number, classification, international designator, epoch year and day, derivatives, drag term, inclination, RAAN, eccentricity, perigee argument, mean anomaly, mean motion, revolution number) return the values that were written.", "quantifier": "all field values in the ranges of the format", "why_tests_cant": "The product of all field ranges.", "anchors": [{"file": "src/tatc/schemas/orbit.py", "symbols": ["TwoLineElements"]}]}
{"id": "C21", "title": "Every accepted element set can be read", "statement": "No accessor of an accepted TwoLineElements object raises.", "quantifier": "every accepted pair of lines", "why_tests_cant": "Negative drag terms and alphanumeric catalog numbers are accepted by validation; tests use one TLE.", "anchors": [{"file": "src/tatc/schemas/orbit.py", "symbols": ["TwoLineElements.get_b_star", "TwoLineElements.get_second_derivative_mean_motion", "TwoLineElements.get_catalog_number"]}, {"file": "src/tatc/utils.py", "symbols": ["is_valid_tle"]}]}
{"id": "C22", "title": "Cached conversions never change an answer", "statement": "Whatever sequence of to_tle(), as_skyfield() and epoch calls precedes it on an orbit that is not modified, each call returns what it would return on a fresh object, with either value of lazy_load; after assigning a field the answers are those of the new field values.", "quantifier": "every history of calls (and of field assignments)", "why_tests_cant": "Histories of unbounded length.", "anchors": [{"file": "src/tatc/schemas/orbit.py", "symbols": ["TwoLineElements", "OrbitBase", "CircularOrbit", "KeplerianOrbit"]}]}
{"id": "C23", "title": "Repeat-cycle queries answer for their own arguments", "statement": "get_repeat_cycle returns the cycle for the tolerances and search duration passed to this call, whatever was asked before.", "quantifier": "every history of calls with arbitrary arguments", "why_tests_cant": "Histories.", "anchors": [{"file": "src/tatc/schemas/orbit.py", "symbols": ["TwoLineElements.get_repeat_cycle"]}]}
{"id": "C24", "title": "Repeat-track propagation stays within one cycle of the epoch", "statement": "When a repeat cycle is in use, the time actually propagated differs from the requested time by a whole number of cycles and lies less than one cycle from the element-set epoch, on the same side as the requested time; without a repeat cycle times are unchanged.", "quantifier": "every requested time, every epoch, every positive cycle length", "why_tests_cant": "Integer division behaviour for negative and boundary offsets.", "anchors": [{"file": "src/tatc/schemas/orbit.py", "symbols": ["TwoLineElements.get_orbit_track"]}]}
{"id": "C25", "title": "Repeat-track events cover the whole window", "statement": "When a repeat cycle is in use, the observation events returned for [start, end] are exactly the whole-cycle translates of the events found in one cycle that fall in [start, end], in time order.", "quantifier": "every window, every epoch, every positive cycle length, every event list of one cycle", "why_tests_cant": "Boundary arithmetic at window and cycle ends, unbounded number of cycles.", "anchors": [{"file": "src/tatc/schemas/orbit.py", "symbols": ["TwoLineElements.get_observation_events"]}]}
{"id": "C26", "title": "Events of several element sets concatenate in time order", "statement": "With several element sets, observation events come out in time order and inside [start, end], each found with the element set of its part.", "quantifier": "every number of element sets, every window", "why_tests_cant": "Unbounded number of parts.", "anchors": [{"file": "src/tatc/schemas/orbit.py", "symbols": ["TwoLineElements.get_observation_events", "TwoLineElements.partition_by_tle_index"]}]}
{"id": "C27", "title": "Member names are unique and sort in member order", "statement": "The generated names of a constellation's members are pairwise distinct and their lexicographic order is member order.", "quantifier": "every constellation name and every number of members", "why_tests_cant": "Power-of-ten boundaries.", "anchors": [{"file": "src/tatc/utils.py", "symbols": ["zero_pad"]}, {"file": "src/tatc/schemas/satellite.py", "symbols": ["WalkerConstellation.generate_members", "TrainConstellation.generate_members", "MOGConstellation.generate_members"]}]}
{"id": "C28", "title": "A Walker constellation uses every plane", "statement": "A Walker constellation of n satellites in p planes has n members; members in the same plane share a right ascension; every plane has at least one and at most ceil(n/p) satellites.", "quantifier": "all n >= 1, 1 <= p <= n", "why_tests_cant": "All pairs (n, p), in particular p not dividing n.", "anchors": [{"file": "src/tatc/schemas/satellite.py", "symbols": ["WalkerConstellation.generate_members", "WalkerConstellation.get_satellites_per_plane"]}]}
{"id": "C29", "title": "Walker geometry follows the pattern n/p/F", "statement": "When p divides n, adjacent planes are 360/p (delta) or 180/p (star) degrees of right ascension apart, satellites in a plane are 360 p/n degrees apart, corresponding satellites of adjacent planes are 360 F/n degrees apart, and all members have distinct positions (right ascension, anomaly).", "quantifier": "all n, p, F with 1 <= p <= n, 0 <= F < p, p | n; every lead orbit", "why_tests_cant": "Number-theoretic pattern over all n/p/F.", "anchors": [{"file": "src/tatc/schemas/satellite.py", "symbols": ["WalkerConstellation"]}]}
{"id": "C30", "title": "Walker validation accepts exactly n/p/F patterns with p <= n and F < p", "statement": "Construction succeeds if and only if 1 <= number_planes <= number_satellites and 0 <= relative_spacing < number_planes.", "quantifier": "all integer triples", "why_tests_cant": "Boundary cases of three interacting validators.", "anchors": [{"file": "src/tatc/schemas/satellite.py", "symbols": ["WalkerConstellation"]}]}
{"id": "C31", "title": "Derived circular orbits compose and stay in range", "statement": "get_derived_orbit on circular and sun-synchronous orbits keeps altitude, inclination and epoch, returns angles in [0, 360), and deriving twice is deriving once by the sums; deriving by zero is the identity on orbits with angles in [0, 360).", "quantifier": "every orbit and all real increments", "why_tests_cant": "Modular arithmetic for all reals, large and negative increments.", "anchors": [{"file": "src/tatc/schemas/orbit.py", "symbols": ["CircularOrbit.get_derived_orbit", "SunSynchronousOrbit.get_derived_orbit"]}]}
{"id": "C32", "title": "Derived Keplerian orbits are always valid", "statement": "get_derived_orbit on a valid Keplerian orbit yields true anomaly and right ascension in [0, 360) so that construction of the derived orbit succeeds, for every eccentricity the schema accepts.", "quantifier": "every valid Keplerian orbit, all increments", "why_tests_cant": "A truncated trigonometric series over all anomalies and eccentricities.", "anchors": [{"file": "src/tatc/schemas/orbit.py", "symbols": ["KeplerianOrbit.get_derived_orbit"]}, {"file": "src/tatc/utils.py", "symbols": ["mean_anomaly_to_true_anomaly", "true_anomaly_to_mean_anomaly"]}]}
{"id": "C33", "title": "Derived Molniya and Tundra orbits keep their period", "statement": "get_derived_orbit on a Molniya (Tundra) orbit returns an orbit with the same orbital period, altitude, inclination, perigee argument and epoch.", "quantifier": "every Molniya and Tundra orbit", "why_tests_cant": "A dropped field shows only for non-default values.", "anchors": [{"file": "src/tatc/schemas/orbit.py", "symbols": ["MolniyaOrbit", "TundraOrbit"]}]}
{"id": "C34", "title": "Members of a train follow one ground track", "statement": "Member k of a train with repeat ground track, k intervals after the lead's epoch, is at the position along its orbit that the lead has at its epoch, and its ascending node is over the same Earth-fixed longitude (with the Earth turning 360 degrees per day); without repeat ground track all members share the lead's orbit plane.", "quantifier": "every number of satellites, every interval (positive or negative), every circular lead orbit", "why_tests_cant": "All reals and unbounded member counts.", "anchors": [{"file": "src/tatc/schemas/satellite.py", "symbols": ["TrainConstellation"]}]}
{"id": "C35", "title": "Mutual-orbiting-group generation terminates", "statement": "The anomaly iteration used to place a member terminates for every member whose eccentricity is below one and its result satisfies Kepler's equation to within the stated tolerance.", "quantifier": "every anomaly, every eccentricity in [0, 1)", "why_tests_cant": "Termination of an unbounded loop.", "anchors": [{"file": "src/tatc/schemas/satellite.py", "symbols": ["MOGConstellation.generate_members"]}]}
{"id": "C36", "title": "Mutual-orbiting-group members are tilted by the requested angle", "statement": "Every member's orbit normal is a unit vector at the requested angle from the lead's orbit normal, the perigee direction is a unit vector in the member's plane, the inclination, right ascension and perigee argument reported reproduce them, and all angles are in range; the eccentricity and tilt match the requested axes.", "quantifier": "every lead orbit, every number of satellites, every axis lengths and clock angle", "why_tests_cant": "Trigonometric identity over all reals.", "anchors": [{"file": "src/tatc/schemas/satellite.py", "symbols": ["MOGConstellation"]}]}
{"id": "C37", "title": "Streets-of-coverage design always yields a valid Walker constellation", "statement": "SOCConstellation.generate_walker never fails validation, has at least one plane and one satellite per plane, an equal number of satellites in every plane, exactly planes x satellites-per-plane members, and enough of them that adjacent footprints overlap along and across the track.", "quantifier": "every swath width up to the horizon, every altitude, every packing distance accepted", "why_tests_cant": "Ceiling arithmetic and arccos/arctan domains for all reals.", "anchors": [{"file": "src/tatc/schemas/satellite.py", "symbols": ["SOCConstellation"]}]}
{"id": "C38", "title": "Fibonacci lattice points are distinct, ordered and on the globe", "statement": "Every generated latitude lies strictly between -90 and 90, latitudes strictly increase with point_id, longitudes lie in (-180, 180], no two points coincide, and there are exactly compute_number_samples(distance) points numbered from zero without a mask.", "quantifier": "every number of samples", "why_tests_cant": "Any sample count; distinctness.", "anchors": [{"file": "src/tatc/generation/points.py", "symbols": ["generate_fibonacci_lattice_points", "_compute_fibonacci_lattice_point_latitude", "_compute_fibonacci_lattice_point_longitude"]}]}
{"id": "C39", "title": "A mask selects the lattice points inside it", "statement": "generate_fibonacci_lattice_points with a mask returns exactly the global lattice points (longitudes taken modulo 360) inside the mask, with their global point_id.", "quantifier": "every sample count, every valid mask", "why_tests_cant": "Masks crossing 180 degrees, all positions.", "anchors": [{"file": "src/tatc/generation/points.py", "symbols": ["generate_fibonacci_lattice_points"]}]}
{"id": "C40", "title": "Grid identifiers are unique", "statement": "Every point (cell) generated by the equally spaced generators has its own point_id (cell_id).", "quantifier": "every distance, every mask", "why_tests_cant": "Depends on fractional part of 360/angle.", "anchors": [{"file": "src/tatc/generation/points.py", "symbols": ["_compute_equally_spaced_point_id", "_generate_equally_spaced_points"]}, {"file": "src/tatc/generation/cells.py", "symbols": ["_generate_equally_spaced_cells"]}]}
{"id": "C41", "title": "Grid points stay inside the bounds", "statement": "Every equally spaced point lies within the mask's bounding box (the globe when there is no mask), and every grid centre strictly inside the box is generated, exactly once.", "quantifier": "every angular step, every bounding box", "why_tests_cant": "Rounding at both ends for all reals.", "anchors": [{"file": "src/tatc/generation/points.py", "symbols": ["_generate_equally_spaced_indices", "_generate_equally_spaced_points"]}]}
{"id": "C42", "title": "A masked grid is the part of the global grid inside the mask", "statement": "With a mask inside the globe, the masked generator yields exactly those global points whose position lies in the mask, with the same identifiers and in the same order.", "quantifier": "every angular step, every mask", "why_tests_cant": "All steps and masks.", "anchors": [{"file": "src/tatc/generation/points.py", "symbols": ["_generate_equally_spaced_points", "_generate_equally_spaced_indices"]}]}
{"id": "C43", "title": "Each grid cell contains exactly its own grid point", "statement": "Cells and points generated with the same distance have the same identifiers in the same order; the point lies strictly inside the cell with its identifier's indices and outside every other cell; interiors of distinct cells are disjoint.", "quantifier": "every angular step", "why_tests_cant": "All pairs of cells.", "anchors": [{"file": "src/tatc/generation/points.py", "symbols": ["_generate_equally_spaced_points"]}, {"file": "src/tatc/generation/cells.py", "symbols": ["_generate_equally_spaced_cells"]}]}
{"id": "C44", "title": "Finer sampling distances never give fewer samples", "statement": "compute_number_samples is at least one, does not increase with distance, and its samples cover the sphere's area to within one sample of the area of a spherical cap of the given diameter.", "quantifier": "every distance > 0", "why_tests_cant": "All reals.", "anchors": [{"file": "src/tatc/utils.py", "symbols": ["compute_number_samples"]}]}
{"id": "C45", "title": "Field of regard and swath width are inverse", "statement": "Converting a field of regard to swath width and back returns it, for fields of regard that do not reach the horizon; converting a swath width to field of regard and back returns it, for swaths within the horizon.", "quantifier": "every altitude > 0, elevation below it, field of regard and swath in range", "why_tests_cant": "Trigonometric identity over all reals.", "anchors": [{"file": "src/tatc/utils.py", "symbols": ["field_of_regard_to_swath_width", "swath_width_to_field_of_regard"]}]}
{"id": "C46", "title": "Field of regard and minimum elevation are inverse", "statement": "Converting a minimum elevation angle to field of regard and back returns it, for every elevation in [0, 90].", "quantifier": "every altitude > 0 and elevation angle in [0, 90]", "why_tests_cant": "Trigonometric identity over all reals.", "anchors": [{"file": "src/tatc/utils.py", "symbols": ["compute_field_of_regard", "compute_min_elevation_angle"]}]}
{"id": "C47", "title": "Wider fields of regard see more", "statement": "Swath width does not decrease and minimum elevation does not increase as the field of regard grows; swath width is never negative and never exceeds the horizon-to-horizon swath; minimum elevation is in [0, 90].", "quantifier": "every altitude > 0, every pair of fields of regard the schema accepts (0 < f <= 360)", "why_tests_cant": "Monotonicity over all pairs.", "anchors": [{"file": "src/tatc/utils.py", "symbols": ["field_of_regard_to_swath_width", "compute_min_elevation_angle"]}, {"file": "src/tatc/schemas/instrument.py", "symbols": ["Instrument"]}]}
{"id": "C48", "title": "Maximum access time bounds every pass", "statement": "compute_max_access_time is at least the time for which a satellite on a circular orbit stays above the minimum elevation of a point fixed in the orbit's frame, decreases with minimum elevation and is between zero and half the period for elevations in [0, 90].", "quantifier": "every altitude > 0, elevation angle in [0, 90]", "why_tests_cant": "Inequality over all reals.", "anchors": [{"file": "src/tatc/utils.py", "symbols": ["compute_max_access_time", "compute_orbit_period"]}]}
{"id": "C49", "title": "Period, mean motion, semimajor axis and altitude agree", "statement": "For a circular orbit at any altitude the period grows with altitude, mean motion times period is one day, and the semimajor axis recovered from the mean motion is the earth's mean radius plus altitude.", "quantifier": "every altitude > 0", "why_tests_cant": "All reals.", "anchors": [{"file": "src/tatc/utils.py", "symbols": ["compute_orbit_period"]}, {"file": "src/tatc/schemas/orbit.py", "symbols": ["OrbitBase", "TwoLineElements.get_semimajor_axis", "TwoLineElements.get_altitude"]}]}
{"id": "C50", "title": "Access time and along-track distance are inverse and ground velocity follows inclination", "statement": "along_track_distance_to_access_time and access_time_to_along_track_distance invert each other; the ground velocity of a polar orbit has no earth-rotation component and ground velocity does not decrease with inclination from 0 to 180 degrees.", "quantifier": "every altitude and inclination", "why_tests_cant": "All reals; a unit error in an angle argument.", "anchors": [{"file": "src/tatc/utils.py", "symbols": ["compute_ground_velocity", "along_track_distance_to_access_time", "access_time_to_along_track_distance"]}]}
{"id": "C51", "title": "Anomaly conversions respect the symmetry of the ellipse", "statement": "Mean and true anomaly coincide for circular orbits and at perigee and apogee; conversion commutes with full turns and with reflection about the line of apsides.", "quantifier": "every anomaly and eccentricity", "why_tests_cant": "All reals.", "anchors": [{"file": "src/tatc/utils.py", "symbols": ["mean_anomaly_to_true_anomaly", "true_anomaly_to_mean_anomaly"]}]}
{"id": "C52", "title": "Projecting a polygon to an elevation changes only its height", "statement": "project_polygon_to_elevation keeps every ring, vertex order and horizontal coordinate, gives every vertex the requested elevation, accepts 2D and 3D input and is idempotent.", "quantifier": "every polygon and multipolygon", "why_tests_cant": "Any number of rings and vertices.", "anchors": [{"file": "src/tatc/utils.py", "symbols": ["project_polygon_to_elevation"]}]}
{"id": "C53", "title": "Unwrapping at the antimeridian is continuous", "statement": "When coordinates of a ring are shifted to cross the antimeridian, each shifted longitude differs from the original by a multiple of 360 and consecutive longitudes differ by at most 180.", "quantifier": "every ring with longitudes in [-180, 180]", "why_tests_cant": "Any number of vertices and crossings.", "anchors": [{"file": "src/tatc/utils.py", "symbols": ["split_polygon", "_split_polygon_antimeridian"]}]}
{"id": "C54", "title": "Wrapping returns valid longitudes", "statement": "Wrapping the pieces of a polygon that spans less than 360 degrees and is split at the antimeridian returns longitudes in [-180, 180] equal to the original modulo 360, holes included; it never fails.", "quantifier": "every polygon piece", "why_tests_cant": "Mixed longitude cases.", "anchors": [{"file": "src/tatc/utils.py", "symbols": ["_wrap_polygon_over_antimeridian"]}]}
{"id": "C55", "title": "Wrapping over a pole treats both poles alike", "statement": "A polygon extended beyond a pole is wrapped back to latitudes within [-90, 90], interior rings included, at the north and at the south pole.", "quantifier": "every polygon piece with or without holes", "why_tests_cant": "Holes at the poles.", "anchors": [{"file": "src/tatc/utils.py", "symbols": ["_wrap_polygon_over_north_pole", "_wrap_polygon_over_south_pole"]}]}
{"id": "C56", "title": "Geometry collections are flattened to polygons", "statement": "Converting a mixture of polygons, multipolygons and collections yields one polygon or one multipolygon that holds exactly the polygon parts in order, whatever the nesting.", "quantifier": "every finite nesting", "why_tests_cant": "Unbounded nesting.", "anchors": [{"file": "src/tatc/utils.py", "symbols": ["_convert_collection_to_polygon", "split_polygon"]}]}
{"id": "C57", "title": "Occultation arcs are the maximal runs of valid samples", "statement": "The occultations of a transmitter are, in order, exactly the maximal runs of consecutive sample times at which the geometry is valid and the tangent point is in the elevation range; no run is lost, split, joined, or left open at the end of the window.", "quantifier": "every sequence of validity and elevation values of any length", "why_tests_cant": "2^(2n) sequences.", "anchors": [{"file": "src/tatc/analysis/ro_coverage.py", "symbols": ["_collect_ro_series"]}]}
{"id": "C58", "title": "The tangent point is the point of the ray nearest the earth's centre", "statement": "The tangent point lies on the line through transmitter and receiver, is orthogonal to it and nearest to the earth's centre among all its points; it is accepted only if it lies strictly between the two satellites.", "quantifier": "all distinct transmitter and receiver positions", "why_tests_cant": "All positions in space.", "anchors": [{"file": "src/tatc/analysis/ro_coverage.py", "symbols": ["_collect_ro_series"]}]}
{"id": "C59", "title": "The tangent point velocity is the derivative of its position", "statement": "The reported tangent-point velocity equals the time derivative of the tangent-point position for satellites moving with the given velocities.", "quantifier": "all positions and velocities with distinct satellites", "why_tests_cant": "All positions and velocities.", "anchors": [{"file": "src/tatc/analysis/ro_coverage.py", "symbols": ["_collect_ro_series"]}]}
{"id": "C60", "title": "Yaw acceptance is symmetric fore and aft", "statement": "A sample is accepted exactly when the transmitter's yaw is within max_yaw of the forward or of the backward direction.", "quantifier": "every yaw in [-180, 180], every max_yaw in (0, 90)", "why_tests_cant": "Modulo arithmetic boundary values.", "anchors": [{"file": "src/tatc/analysis/ro_coverage.py", "symbols": ["_collect_ro_series"]}]}
{"id": "C61", "title": "Each occultation is reported at its sample nearest the requested elevation", "statement": "collect_ro_observations reports one row per arc; its time, position and angles are those of one sample of the arc whose elevation is nearest sample_elevation; start <= time <= end; rows are in order of time.", "quantifier": "every set of arcs with sample times in increasing order", "why_tests_cant": "Any number of arcs and samples.", "anchors": [{"file": "src/tatc/analysis/ro_coverage.py", "symbols": ["collect_ro_observations"]}]}
{"id": "C62", "title": "Dilution-of-precision kinds are consistent", "statement": "For the same satellites GDOP^2 = PDOP^2 + TDOP^2 and PDOP^2 = HDOP^2 + VDOP^2, all are non-negative, and the value does not depend on satellite order or on the scale of the ranges.", "quantifier": "every set of satellites with invertible geometry", "why_tests_cant": "Matrix identity for every number of satellites.", "anchors": [{"file": "src/tatc/analysis/dop.py", "symbols": ["compute_dop"]}]}
{"id": "C63", "title": "More satellites never dilute precision", "statement": "Adding satellites, lowering the minimum elevation and lowering min_count_visible never increase any dilution of precision that compute_dop reports, and never remove one.", "quantifier": "every list of satellites, every longer list, every lower minimum elevation and count, every time and method", "why_tests_cant": "Matrix inequality.", "anchors": [{"file": "src/tatc/analysis/dop.py", "symbols": ["compute_dop"]}]}
{"id": "C64", "title": "Dilution of precision is computed whenever enough satellites are visible", "statement": "compute_dop returns one row per time; the value is present exactly when at least min_count_visible satellites are above the minimum elevation, and the geometry is the observer's longitude (x) and latitude (y).", "quantifier": "every visibility history", "why_tests_cant": "Boundary count.", "anchors": [{"file": "src/tatc/analysis/dop.py", "symbols": ["compute_dop"]}]}
{"id": "C65", "title": "Illumination constraints are decided exactly", "statement": "is_valid_observation is true exactly when each requirement that is set (self sunlit or not, target sunlit or not) holds, for scalar times and, element by element, for vector times.", "quantifier": "all requirement settings, all illumination histories", "why_tests_cant": "Vector lengths unbounded; nine combinations times histories.", "anchors": [{"file": "src/tatc/schemas/instrument.py", "symbols": ["Instrument.is_valid_observation"]}]}
{"id": "C66", "title": "Detector pixels tile the field of view", "statement": "The pixel array has one entry per along/cross track index; offsets are symmetric about boresight, equally spaced by the pixel's instantaneous field of view reduced by the overlap, and stay inside the field of view; adjacent pixels overlap by the requested fraction.", "quantifier": "all pixel counts >= 1, all oversampling in [0, 1)", "why_tests_cant": "All array sizes and fractions.", "anchors": [{"file": "src/tatc/schemas/instrument.py", "symbols": ["PointedInstrument"]}]}
{"id": "C67", "title": "Projected pixels lie at their detector angle", "statement": "The ground position of a pixel is where the ray at the pixel's cone angle from boresight, at its clock angle, meets the earth.", "quantifier": "all pixel indices", "why_tests_cant": "All angles.", "anchors": [{"file": "src/tatc/schemas/instrument.py", "symbols": ["PointedInstrument.compute_projected_pixel_position"]}, {"file": "src/tatc/utils.py", "symbols": ["compute_projected_ray_position"]}]}
{"id": "C68", "title": "Rectangular footprints trace the rectangle's boundary", "statement": "Every ray of a rectangular footprint lies on the boundary of the rectangle with the given cross- and along-track fields of view; there are as many vertices as requested.", "quantifier": "all fields of view and ray counts", "why_tests_cant": "All angles.", "anchors": [{"file": "src/tatc/utils.py", "symbols": ["compute_projected_ray_position", "compute_footprint"]}]}
{"id": "C69", "title": "Orbit tracks have one record per requested time", "statement": "collect_orbit_track returns one record per time in order, each with its own time's position, swath width and validity; a mask only removes records.", "quantifier": "every list of times, every mask", "why_tests_cant": "Any length.", "anchors": [{"file": "src/tatc/analysis/track.py", "symbols": ["collect_orbit_track"]}]}
{"id": "C70", "title": "Ground tracks keep every segment", "statement": "compute_ground_track with the line method buffers every track segment with that segment's own swath width and drops none, including segments that are split at the antimeridian.", "quantifier": "every track, every number of segments and splits", "why_tests_cant": "Only tracks with antimeridian crossings in the middle of a group expose it.", "anchors": [{"file": "src/tatc/analysis/track.py", "symbols": ["compute_ground_track"]}]}
{"id": "C71", "title": "Every ground footprint gets exactly one projection, polar ones first", "statement": "Choosing the projection of a ground footprint is total: the north polar projection when the footprint reaches beyond 84 degrees north, otherwise the south polar one when it reaches beyond 80 degrees south, otherwise the first matching UTM zone, and the global default only when no zone matches; footprints in the UTM latitudes never get a polar projection.", "quantifier": "all points, all positive swath widths, all zone databases", "why_tests_cant": "All reals, both band boundaries and wide swaths.", "anchors": [{"file": "src/tatc/analysis/track.py", "symbols": ["_get_utm_epsg_code"]}]}
{"id": "C72", "title": "Loading a configuration either gives a valid configuration or a configuration error", "statement": "load_yaml_config returns a configuration satisfying the documented constraints or raises the documented configuration error, for every file content.", "quantifier": "all YAML documents", "why_tests_cant": "All file contents.", "anchors": [{"file": "src/tatc/config.py", "symbols": ["load_yaml_config", "RuntimeConfiguration"]}]}
{"id": "C73", "title": "Downlink collection reports exactly the long enough passes over every station", "statement": "collect_downlinks returns, ordered by start, exactly one row for every station and every visible period of it that lasts at least the station's minimum access time, with the station's name, the satellite's name and the period's start, end and middle.", "quantifier": "every list of stations (with repetitions), all visible periods, all minimum access times", "why_tests_cant": "Any number of stations and passes, ties in start.", "anchors": [{"file": "src/tatc/analysis/latency.py", "symbols": ["collect_downlinks"]}]}
{"id": "C74", "title": "A mutual orbiting group goes around its reference satellite", "statement": "At the epoch every member of a mutual orbiting group is within the sum of the requested axis lengths of the position of the reference satellite given by the reference orbit.", "quantifier": "every reference circular orbit, in particular every true anomaly; all axis lengths and member counts", "why_tests_cant": "An ignored field shows only for values the tests do not use.", "anchors": [{"file": "src/tatc/schemas/satellite.py", "symbols": ["MOGConstellation.generate_members"]}]}
{"id": "C75", "title": "Grid cells cover the area they are generated for", "statement": "Every position of the mask (of the globe when there is no mask) lies in at least one cell generated by generate_equally_spaced_cells.", "quantifier": "every distance, every mask, every position", "why_tests_cant": "All real positions; only slivers narrower than half a step expose gaps.", "anchors": [{"file": "src/tatc/generation/cells.py", "symbols": ["generate_equally_spaced_cells", "_generate_equally_spaced_cells"]}]}
{"id": "C76", "title": "A sun-synchronous orbit keeps the requested local time of its equator crossing", "statement": "At its epoch the ascending (or descending, as requested) node of a sun-synchronous orbit lies where the local solar time is the requested equator crossing time; for every accepted altitude the reported inclination makes the node turn once a year.", "quantifier": "every accepted altitude, every crossing time, both directions, every epoch", "why_tests_cant": "All altitudes and times of day; the precession is a relation between real functions.", "anchors": [{"file": "src/tatc/schemas/orbit.py", "symbols": ["SunSynchronousOrbit.get_inclination", "SunSynchronousOrbit.get_right_ascension_ascending_node"]}]}
{"id": "C77", "title": "An occultation is rising exactly when the transmitter is ahead of the receiver", "statement": "is_rising of an occultation is true exactly when, at the first sample of its arc, the direction from receiver to transmitter has a positive component along the receiver's velocity.", "quantifier": "every valid geometry of receiver and transmitter, every receiver velocity", "why_tests_cant": "All real geometries; the decision goes through an arctangent of projections.", "anchors": [{"file": "src/tatc/analysis/ro_coverage.py", "symbols": ["_collect_ro_series"]}]}
{"id": "C78", "title": "Reported pitch and yaw give the transmitter's direction", "statement": "For a receiver moving horizontally, the reported pitch is the angle of the transmitter's direction above the velocity in the orbit plane and the reported yaw its angle from the velocity in the horizontal plane, positive towards the orbit normal.", "quantifier": "every receiver position and horizontal velocity, every transmitter position", "why_tests_cant": "All real vectors, all four quadrants.", "anchors": [{"file": "src/tatc/analysis/ro_coverage.py", "symbols": ["_collect_ro_series", "collect_ro_observations"]}]}
{"id": "C79", "title": "The antimeridian latitude of a polygon around a pole", "statement": "When a polygon around a pole is opened at the antimeridian, the added vertices have the latitude at which the edge between its eastern- and westernmost vertices crosses the antimeridian.", "quantifier": "every polygon around a pole", "why_tests_cant": "Only asymmetric polygons expose it.", "anchors": [{"file": "src/tatc/utils.py", "symbols": ["split_polygon", "_split_polygon_antimeridian"]}]}
{"id": "C80", "title": "Splitting a polygon returns coordinates on the globe", "statement": "split_polygon succeeds for every polygon and multipolygon that spans less than 360 degrees, with or without holes and heights, and every vertex of the result has a longitude in [-180, 180] and a latitude in [-90, 90].", "quantifier": "every polygon and multipolygon with longitudes in [-180, 180]", "why_tests_cant": "Any number of vertices, crossings, holes and poles.", "anchors": [{"file": "src/tatc/utils.py", "symbols": ["split_polygon", "_split_polygon_antimeridian", "_split_polygon_north_pole", "_split_polygon_south_pole"]}]}
{"id": "C81", "title": "Angles of rays have the documented units", "statement": "The clock angle that get_pixel_cone_and_clock_angle returns and the ray angle that compute_projected_ray_position takes are in degrees, as documented.", "quantifier": "all pixels, all angles", "why_tests_cant": "All real angles.", "anchors": [{"file": "src/tatc/schemas/instrument.py", "symbols": ["PointedInstrument.get_pixel_cone_and_clock_angle"]}, {"file": "src/tatc/utils.py", "symbols": ["compute_projected_ray_position"]}]}
{"id": "C82", "title": "Pixel indices run from left to right and from fore to aft", "statement": "Seen from the satellite looking ahead, pixels with a greater cross-track index are further to the right and pixels with a greater along-track index further aft; ray angles are counted counterclockwise from the right.", "quantifier": "all pixel counts and pairs of indices, every position and velocity", "why_tests_cant": "Array sizes are unbounded and the projection is not linear in the index.", "anchors": [{"file": "src/tatc/schemas/instrument.py", "symbols": ["PointedInstrument.compute_projected_pixel_position", "PointedInstrument.compute_footprint_pixel_array"]}, {"file": "src/tatc/utils.py", "symbols": ["compute_projected_ray_position"]}]}
{"id": "C83", "title": "Roll and pitch turn the boresight", "statement": "The boresight of an instrument with a roll (pitch) in the accepted range of -180 to 180 degrees is the direction to the earth's centre turned by that angle, by the right hand rule about the velocity (orbit normal).", "quantifier": "all accepted angles, every position and velocity", "why_tests_cant": "All real angles, including those above 90 degrees.", "anchors": [{"file": "src/tatc/utils.py", "symbols": ["compute_projected_ray_position"]}, {"file": "src/tatc/schemas/instrument.py", "symbols": ["PointedInstrument"]}]}
{"id": "C84", "title": "Elliptical footprints have the requested opening", "statement": "Every ray of an elliptical footprint is on the ellipse whose axes are the two fields of view and there are as many vertices as requested; for a field of regard in the accepted range of 0 to 360 degrees the edge of the footprint is seen at half of it from straight down.", "quantifier": "all accepted fields of view and of regard, every number of points", "why_tests_cant": "All real angles.", "anchors": [{"file": "src/tatc/utils.py", "symbols": ["compute_footprint", "compute_projected_ray_position"]}, {"file": "src/tatc/schemas/instrument.py", "symbols": ["Instrument.compute_footprint", "Instrument.compute_footprint_center"]}]}
{"id": "C85", "title": "Ground tracks and ground pixels have one record per time and pixel", "statement": "collect_ground_track without a mask returns one record per time, in order, with that time's own footprint and validity; collect_ground_pixels returns one block per time with one record per pixel of the detector, each with its own pixel's validity, and refuses instruments that are not rectangular.", "quantifier": "every list of times, every instrument, every pixel count", "why_tests_cant": "Any number of times and pixels.", "anchors": [{"file": "src/tatc/analysis/track.py", "symbols": ["collect_ground_track", "collect_ground_pixels"]}]}
{"id": "C86", "title": "Masking a ground track is clipping it", "statement": "collect_ground_track with a mask gives the records of the track without a mask whose geometry meets the mask, clipped to it, whatever the other times of the request are.", "quantifier": "every mask (polygon, data frame, series), every list of times, every crs", "why_tests_cant": "Culling happens before clipping; only masks near the edge of a footprint or with several parts expose a loss.", "anchors": [{"file": "src/tatc/analysis/track.py", "symbols": ["collect_ground_track"]}]}
{"id": "C87", "title": "Lines join exactly the contiguous valid samples of an orbit", "statement": "In the line method of compute_ground_track two valid samples of the same orbit are joined in one line exactly when all samples between them are valid; every valid sample is in exactly one line.", "quantifier": "every sequence of validities and times", "why_tests_cant": "All sequences of any length.", "anchors": [{"file": "src/tatc/analysis/track.py", "symbols": ["compute_ground_track"]}]}
{"id": "C88", "title": "Orbits are counted from the first time", "statement": "compute_ground_track files a sample under the number of whole orbit periods between the first requested time and it, so that the first sample is in orbit zero.", "quantifier": "all start times, periods and times", "why_tests_cant": "Only start times that are not whole milliseconds expose it.", "anchors": [{"file": "src/tatc/analysis/track.py", "symbols": ["compute_ground_track"]}]}
{"id": "C89", "title": "The aggregated ground track covers exactly the valid footprints", "statement": "With the point method, compute_ground_track gives one row per orbit with a valid observation, in order, or one row in all; a point of the earth is covered by the rows exactly when a valid record's footprint covers it. Unknown methods, and the line method with exact footprints, raise ValueError.", "quantifier": "every track, dissolved or not, masked or not", "why_tests_cant": "Any number of records and orbits.", "anchors": [{"file": "src/tatc/analysis/track.py", "symbols": ["compute_ground_track"]}]}
{"id": "C90", "title": "An orbit and its element set describe the same motion", "statement": "to_tle() of every accepted orbit with a two-digit-year epoch succeeds, and the element set it returns reads back the orbit's own epoch, inclination, right ascension, eccentricity, argument of perigee, mean anomaly and mean motion, to the precision of the format.", "quantifier": "all accepted circular, sun-synchronous, Keplerian, Molniya and Tundra orbits", "why_tests_cant": "Real-valued elements; only eccentric orbits near perigee and epochs without time zone expose a failure.", "anchors": [{"file": "src/tatc/schemas/orbit.py", "symbols": ["CircularOrbit.to_tle", "SunSynchronousOrbit.to_tle", "KeplerianOrbit.to_tle", "MolniyaOrbit.to_tle", "TundraOrbit"]}]}
{"id": "C91", "title": "Period, mean motion and altitude survive conversion", "statement": "The orbit period, mean motion and altitude an orbit reports are those its element set reports, within half a millisecond and one metre.", "quantifier": "all orbits up to 36000 km", "why_tests_cant": "Real-valued altitudes; a difference between classes shows only when both sides are compared.", "anchors": [{"file": "src/tatc/schemas/orbit.py", "symbols": ["OrbitBase.get_orbit_period", "OrbitBase.get_mean_motion", "TwoLineElements.get_orbit_period", "TwoLineElements.get_altitude", "MolniyaOrbit"]}]}
{"id": "C92", "title": "The altitude of a Molniya or Tundra orbit is that of its perigee", "statement": "The element set of a Molniya or Tundra orbit has its perigee at the given altitude, a semimajor axis that matches the orbital period by Kepler's third law, and an eccentricity between zero and one.", "quantifier": "all accepted altitudes, periods and eccentricities", "why_tests_cant": "Real-valued altitudes and periods.", "anchors": [{"file": "src/tatc/schemas/orbit.py", "symbols": ["MolniyaOrbit.get_semimajor_axis", "MolniyaOrbit.get_eccentricity", "TundraOrbit"]}]}
{"id": "C93", "title": "The repeat cycle is the first return", "statement": "get_repeat_cycle (nothing cached) returns the time to the first culmination, between ten minutes and the search duration after the epoch, at which Earth-fixed position and velocity are within the tolerances of those at the epoch, and None exactly when there is no such culmination.", "quantifier": "every motion, every list of events, every tolerance and search duration", "why_tests_cant": "Any motion and any number of events.", "anchors": [{"file": "src/tatc/schemas/orbit.py", "symbols": ["TwoLineElements.get_repeat_cycle"]}]}
{"id": "C94", "title": "The field of view covers the swath it was computed from", "statement": "swath_width_to_field_of_view returns the angle, at the satellite, between the two ends of a swath of the given width centred where the given look angle meets the ground; at nadir it is the field of regard of that swath.", "quantifier": "all altitudes, elevations, swath widths and look angles for which both ends are above the horizon", "why_tests_cant": "Real-valued geometry; tests compare only a few nadir values.", "anchors": [{"file": "src/tatc/utils.py", "symbols": ["swath_width_to_field_of_view"]}]}
{"id": "C95", "title": "Culling keeps every time at which the target is in view", "statement": "collect_ground_track and collect_ground_pixels with a mask drop only times at which no point of the mask is within half the field of regard of the satellite.", "quantifier": "all masks, positions of the satellite, altitudes, inclinations, fields of regard and orders of the times", "why_tests_cant": "Real-valued positions over the whole sphere.", "anchors": [{"file": "src/tatc/utils.py", "symbols": ["buffer_target"]}, {"file": "src/tatc/analysis/track.py", "symbols": ["collect_ground_track", "collect_ground_pixels"]}]}
{"id": "C96", "title": "Total access is the time the point is observed", "statement": "The access durations of a point in the aggregated frame add up to the time at which at least one observation of it is under way; adding observations never reduces it and adds at most their own total; it is between zero and the length of the window that contains them; samples times mean access of the reduced frame is that total, to 500 nanoseconds per sample.", "quantifier": "every well-formed frame of observations, every window, any number of points", "why_tests_cant": "Overlaps of any number of observations in any order; the total is compared with a set of times.", "anchors": [{"file": "src/tatc/analysis/coverage.py", "symbols": ["aggregate_observations", "reduce_observations"]}]}
{"id": "C97", "title": "More observations never lengthen a gap", "statement": "After observations are added, no revisit of a point is longer than the longest before, and the mean revisit is no longer.", "quantifier": "every pair of well-formed frames, the second containing the observations of the first", "why_tests_cant": "Any number of observations interleaved in any way.", "anchors": [{"file": "src/tatc/analysis/coverage.py", "symbols": ["aggregate_observations", "reduce_observations"]}]}
{"id": "C98", "title": "The columns of a result do not depend on whether it is empty", "statement": "Every analysis returns the same columns, those documented, when there is nothing to report as when there is, so that the steps of an analysis can be chained and columns read without checking for emptiness.", "quantifier": "every number of records, every option, every frame passed on", "why_tests_cant": "Whether anything is observed depends on orbits, instruments, points, masks and times.", "anchors": [{"file": "src/tatc/analysis/coverage.py", "symbols": ["collect_observations", "collect_multi_observations", "aggregate_observations", "reduce_observations", "grid_observations"]}, {"file": "src/tatc/analysis/latency.py", "symbols": ["collect_downlinks", "compute_latencies", "reduce_latencies", "grid_latencies"]}, {"file": "src/tatc/analysis/ro_coverage.py", "symbols": ["collect_ro_observations"]}, {"file": "src/tatc/analysis/track.py", "symbols": ["collect_orbit_track", "collect_ground_track", "collect_ground_pixels"]}]}
{"id": "C99", "title": "The orbit track of a list of times is that of each time", "statement": "get_orbit_track of a list of times gives, in order, what it gives for each time alone; reported times are those asked for; with several element sets every time is propagated by one with the nearest epoch; with one, the position is that of the time itself or of a time a whole number of repeat cycles away and less than one cycle from the epoch.", "quantifier": "every list of times, every propagator, any number of element sets, every configuration", "why_tests_cant": "Lists of any length, times on both sides of any number of epochs.", "anchors": [{"file": "src/tatc/schemas/orbit.py", "symbols": ["TwoLineElements.get_orbit_track", "TwoLineElements.get_closest_tle_index"]}]}
{"id": "C100", "title": "A repeated orbit track is where the satellite is", "statement": "With a repeat cycle in use (the default), the Earth-fixed position given by get_orbit_track is where the satellite is on the Earth at that time, if it returns to the same Earth-fixed position after every cycle.", "quantifier": "every time, every repeating motion, every rotation of the Earth", "why_tests_cant": "Only times more than one cycle from the epoch differ, and by an amount that grows with the number of cycles.", "anchors": [{"file": "src/tatc/schemas/orbit.py", "symbols": ["TwoLineElements.get_orbit_track", "TwoLineElements.get_repeat_cycle"]}]}
{"id": "C101", "title": "The orbit track shows what observation events report", "statement": "At the time of every event returned by get_observation_events, with the same configuration, get_orbit_track has the satellite at the elevation the event reports (straight overhead, or at the threshold).", "quantifier": "every window, every motion, every place", "why_tests_cant": "The two functions fold times into a cycle in different ways; they agree near the epoch.", "anchors": [{"file": "src/tatc/schemas/orbit.py", "symbols": ["TwoLineElements.get_observation_events", "TwoLineElements.get_orbit_track"]}]}
{"id": "C102", "title": "Total access is the time a satellite is in view", "statement": "With instruments without minimum access time, fixed access time or failing tests, the access times of a point, collected over all satellites and aggregated, add up to the time during which at least one satellite is in view; a satellite is in view throughout every row and none is between consecutive rows. With a minimum access time or tests they add up to no more.", "quantifier": "any number of constellations, members and instruments, every visibility history", "why_tests_cant": "Any overlaps of passes of any number of satellites, cut by the ends of the window.", "anchors": [{"file": "src/tatc/analysis/coverage.py", "symbols": ["collect_observations", "collect_multi_observations", "aggregate_observations"]}]}
{"id": "C103", "title": "Anomaly conversions solve Kepler's equation", "statement": "mean_anomaly_to_true_anomaly and true_anomaly_to_mean_anomaly give the true and the mean anomaly of the same point of an orbit of the given eccentricity (and so are inverse).", "quantifier": "every anomaly, every eccentricity from 0 below 1", "why_tests_cant": "A wrong coefficient of one term of a series changes every answer by less than the tolerance of a test.", "anchors": [{"file": "src/tatc/utils.py", "symbols": ["mean_anomaly_to_true_anomaly", "true_anomaly_to_mean_anomaly"]}, {"file": "src/tatc/schemas/orbit.py", "symbols": ["KeplerianOrbit.get_mean_anomaly"]}]}
{"id": "C104", "title": "Objects written to data and read back are the same", "statement": "Reading what model_dump wrote of an instrument, orbit, ground station, satellite, constellation or architecture gives back an equal object, in the same process or in one started at another time.", "quantifier": "every data from which the object was made (objects or nested data), every class, every two import times", "why_tests_cant": "Fields are dropped or refused only for certain combinations of the class of an object and the class declared for the field that holds it; examples show the combinations somebody thought of.", "anchors": [{"file": "src/tatc/schemas/satellite.py", "symbols": ["SpaceSystem", "Satellite", "TrainConstellation", "WalkerConstellation", "MOGConstellation", "SOCConstellation"]}, {"file": "src/tatc/schemas/instrument.py", "symbols": ["Instrument", "PointedInstrument"]}, {"file": "src/tatc/schemas/architecture.py", "symbols": ["Architecture"]}, {"file": "src/tatc/schemas/orbit.py", "symbols": ["OrbitBase"]}]}
{"id": "C105", "title": "Every orbit of the library can be flown", "statement": "An orbit of any class that the library defines can be given to a satellite, train or Walker constellation, which keeps it as it is.", "quantifier": "every orbit object, every satellite class, every other argument", "why_tests_cant": "Each class passes its own tests; whether they can be combined is a statement about all pairs.", "anchors": [{"file": "src/tatc/schemas/satellite.py", "symbols": ["SpaceSystem.orbit", "TrainConstellation.orbit", "WalkerConstellation.orbit"]}, {"file": "src/tatc/schemas/orbit.py", "symbols": ["MolniyaOrbit", "TundraOrbit"]}]}
{"id": "C106", "title": "The same data make the same orbit", "statement": "Giving the same data to an orbit class makes equal orbits, in any process and at any time.", "quantifier": "every data, every orbit class, every two times at which the library is imported", "why_tests_cant": "A test runs in one process, in which all defaults were evaluated once.", "anchors": [{"file": "src/tatc/schemas/orbit.py", "symbols": ["OrbitBase.epoch"]}]}
{"id": "C107", "title": "Vertices of a footprint are points that the satellite sees", "statement": "Every vertex of compute_footprint and every point of compute_footprint_center and compute_projected_ray_position is a point of the ground, at the given elevation, that the satellite sees: the straight line between them does not enter the Earth.", "quantifier": "every satellite position and velocity above the ground, every field of view, roll, pitch, ray angle and elevation", "why_tests_cant": "Rays that miss the Earth are replaced by points of the limb, by a construction that a few examples in low orbits do not exercise.", "anchors": [{"file": "src/tatc/utils.py", "symbols": ["compute_projected_ray_position", "compute_footprint"]}, {"file": "src/tatc/schemas/instrument.py", "symbols": ["PointedInstrument.compute_footprint", "PointedInstrument.compute_footprint_center"]}]}
{"id": "C108", "title": "Footprints show what is in the field of view", "statement": "Each vertex of a footprint is where the line of sight of its angle first meets the ground, and an instrument whose field of view misses the Earth has no footprint.", "quantifier": "every satellite position and velocity, every field of view, roll and pitch", "why_tests_cant": "The far intersection of a line with an ellipsoid is also on the ground; only rays at large angles miss.", "anchors": [{"file": "src/tatc/utils.py", "symbols": ["compute_projected_ray_position", "compute_footprint"]}, {"file": "src/tatc/schemas/instrument.py", "symbols": ["PointedInstrument.compute_footprint"]}]}
{"id": "C109", "title": "The limb is the horizon of the satellite", "statement": "The vertices of compute_limb are the number asked for, on the horizon of the satellite, which is where a plane cuts the Earth; the satellite sees the ground on the near side of it and no other.", "quantifier": "every position above the ground, every elevation, every number of points", "why_tests_cant": "A set of all points of the ground, most of which no polygon of a test has as vertices.", "anchors": [{"file": "src/tatc/utils.py", "symbols": ["compute_limb"]}]}
{"id": "C110", "title": "Observation rows are the times at which the instrument sees the point", "statement": "During every row of collect_observations of an instrument with illumination requirements or a pointed field of view, the requirements hold and the point is in the footprint; and every such time in view is in a row.", "quantifier": "every instrument, every history of illumination and footprint, every visible period", "why_tests_cant": "Conditions that change during a pass; a test looks at a pass in whose middle all is well.", "anchors": [{"file": "src/tatc/analysis/coverage.py", "symbols": ["collect_observations"]}]}
{"id": "C111", "title": "Observed points are in the field of regard", "statement": "At every time at which a satellite is above the elevation threshold that collect_observations derives from the field of regard, the point is within half the field of regard from nadir, and conversely.", "quantifier": "every position of satellite and point on a sphere, every field of regard, every altitude at the start and later", "why_tests_cant": "The threshold is computed once, at the start, so the answer depends on when the analysis starts in the orbit.", "anchors": [{"file": "src/tatc/analysis/coverage.py", "symbols": ["collect_observations"]}, {"file": "src/tatc/utils.py", "symbols": ["compute_min_elevation_angle"]}]}
{"id": "C112", "title": "No pass is too long to be observed", "statement": "The limit on the duration of passes (twice compute_max_access_time) removes no real pass of a satellite on a circular orbit.", "quantifier": "every altitude and threshold, every pass seen from a point that turns with the Earth", "why_tests_cant": "The limit is meant for bad data; only high orbits have passes that are so long.", "anchors": [{"file": "src/tatc/analysis/coverage.py", "symbols": ["_get_visible_interval_series"]}, {"file": "src/tatc/utils.py", "symbols": ["compute_max_access_time"]}]}
{"id": "C113", "title": "Splitting a polygon keeps the places it covers", "statement": "The parts that split_polygon returns together cover exactly the places of the globe that the polygon covers, when it is drawn in one plane across the antimeridian and over the poles.", "quantifier": "every polygon and multipolygon of less than 360 degrees, every place off the outlines", "why_tests_cant": "All points of all polygons; tests compare the vertices of a few rectangles.", "anchors": [{"file": "src/tatc/utils.py", "symbols": ["split_polygon", "_split_polygon_antimeridian", "_split_polygon_north_pole", "_split_polygon_south_pole"]}]}
{"id": "C114", "title": "Splitting a polygon around a pole keeps the places it covers", "statement": "The parts that split_polygon returns for a polygon that goes around a pole together cover exactly the places between its outline and the pole.", "quantifier": "every polygon around either pole, every place off the outline", "why_tests_cant": "All points of all polygons around the poles, with vertices in any order and at any latitudes; tests compare the vertices of one cap.", "anchors": [{"file": "src/tatc/utils.py", "symbols": ["split_polygon", "_split_polygon_antimeridian"]}]}
{"id": "C115", "title": "Pointing an instrument does not change its field of view", "statement": "The angle between opposite sides of an instrument's footprint, as seen from the satellite, is its cross track (along track) field of view, whatever its roll and pitch.", "quantifier": "all fields of view below 180 degrees, all rolls and pitches below 90 degrees, elliptical and rectangular fields, every position and velocity", "why_tests_cant": "All real angles; tests compare footprints of instruments that point straight down.", "anchors": [{"file": "src/tatc/utils.py", "symbols": ["compute_projected_ray_position", "compute_footprint"]}, {"file": "src/tatc/schemas/instrument.py", "symbols": ["PointedInstrument.compute_footprint"]}]}
{"id": "C116", "title": "Coverage and latency can be analysed point by point", "statement": "Aggregating or reducing the rows of some of the points gives exactly the rows of those points in the result for all points, in every column, and the results of frames with consecutive points can be put one after the other; the same holds of reduced latencies, and of latencies up to the order of simultaneous rows.", "quantifier": "every frame of observations or latencies, every set of points, every order of sorting ties", "why_tests_cant": "All frames and all subsets; tests aggregate one frame.", "anchors": [{"file": "src/tatc/analysis/coverage.py", "symbols": ["aggregate_observations", "reduce_observations"]}, {"file": "src/tatc/analysis/latency.py", "symbols": ["compute_latencies", "reduce_latencies"]}]}
{"id": "C117", "title": "Aggregating in stages gives what aggregating at once gives", "statement": "Aggregating parts of the observations, putting the results together and aggregating again gives the rows of aggregating all observations at once, and so the same reduced statistics.", "quantifier": "every list of frames of observations, split in any way", "why_tests_cant": "All ways of splitting frames, with passes that overlap across the parts.", "anchors": [{"file": "src/tatc/analysis/coverage.py", "symbols": ["aggregate_observations", "reduce_observations"]}]}
{"id": "C118", "title": "Access over consecutive periods adds up", "statement": "The total access time of a point over a period and over the one that follows it is its total access time over both at once.", "quantifier": "every period and every time at which it is cut, every number of satellites and passes", "why_tests_cant": "All times at which a period can be cut, within and between passes.", "anchors": [{"file": "src/tatc/analysis/coverage.py", "symbols": ["collect_observations", "collect_multi_observations", "_get_visible_interval_series"]}]}
{"id": "C119", "title": "The ground track shows what the instrument sees", "statement": "The footprint of a row of collect_ground_track, with its default coordinate reference system, contains a place exactly when the instrument sees it within its field of regard.", "quantifier": "every sub-satellite point, height, field of regard and elevation, every place", "why_tests_cant": "All places at all latitudes; tests check that polygons are returned.", "anchors": [{"file": "src/tatc/analysis/track.py", "symbols": ["collect_ground_track"]}, {"file": "src/tatc/utils.py", "symbols": ["buffer_footprint", "field_of_regard_to_swath_width"]}]}
{"id": "C120", "title": "The swath width spans what is observed", "statement": "The places within half the swath width that an instrument gives for a height (and that a row of the orbit track reports) of the point below the satellite are those from which the satellite stands at least at the minimum elevation angle that the instrument gives for the height, which is the angle from which observations are collected; and they are the places that the satellite sees within half its field of regard.", "quantifier": "every height, field of regard the library accepts, and pair of satellite and place", "why_tests_cant": "a test compares the two answers at a few heights; that they bound the same places is geometry for all of them", "anchors": [{"file": "src/tatc/schemas/instrument.py", "symbols": ["Instrument.get_swath_width", "Instrument.get_min_elevation_angle"]}, {"file": "src/tatc/utils.py", "symbols": ["field_of_regard_to_swath_width", "compute_min_elevation_angle"]}, {"file": "src/tatc/analysis/track.py", "symbols": ["collect_orbit_track"]}]}
{"id": "C121", "title": "The members of a constellation are independent objects", "statement": "After the members of a constellation have been generated, changing the orbit, the instruments, the list of instruments or the name of one of them changes neither the constellation nor any other member, and changing the constellation changes no member.", "quantifier": "every constellation with any instruments (also shared ones), every number of members, every sequence of changes to one of the systems", "why_tests_cant": "a test changes one attribute of one member; sharing shows only after particular sequences of changes", "anchors": [{"file": "src/tatc/schemas/satellite.py", "symbols": ["Satellite.generate_members", "TrainConstellation.generate_members", "WalkerConstellation.generate_members", "MOGConstellation.generate_members", "SOCConstellation.generate_walker", "SOCConstellation.generate_members"]}]}
{"id": "C122", "title": "Analyses leave the frames they are given unchanged", "statement": "Aggregating, reducing and gridding observations, and computing, reducing and gridding latencies, leave every data frame that existed before as it was and return a new one; called again with the same frames after any other calls they return an equal frame. Normalizing geometry does so too.", "quantifier": "every history of calls on any frames, including frames that calls returned", "why_tests_cant": "tests call each analysis once and look at its result; a frame that is changed shows only when it is used again", "anchors": [{"file": "src/tatc/analysis/coverage.py", "symbols": ["aggregate_observations", "reduce_observations", "grid_observations"]}, {"file": "src/tatc/analysis/latency.py", "symbols": ["compute_latencies", "reduce_latencies", "grid_latencies"]}, {"file": "src/tatc/utils.py", "symbols": ["normalize_geometry"]}]}
{"id": "C123", "title": "A derived element set describes the same satellite, turned", "statement": "Deriving an orbit from two line elements (as members of a constellation are) is accepted for every accepted element set; the result has as many element sets, with the same epochs, inclination, eccentricity, argument of perigee, mean motion, derivatives and drag, in order; mean anomaly and right ascension are those given plus the offsets, in one turn, rounded to the four decimals of the format (offsets with four decimals are added exactly, and no offset changes nothing); and they are those of the same satellite.", "quantifier": "every number of element sets in the standard layout, every pair of offsets", "why_tests_cant": "tests derive one element set with a few offsets; rounding, wrapping and rejection depend on the values", "anchors": [{"file": "src/tatc/schemas/orbit.py", "symbols": ["TwoLineElements.get_derived_orbit", "TwoLineElements.get_tle_count"]}, {"file": "src/tatc/utils.py", "symbols": ["is_valid_tle", "is_chronological_tle"]}]}
{"id": "C124", "title": "The solar beta angle is the height of the Sun above the orbit plane", "statement": "The solar_beta column of collect_orbit_track is between -90 and 90 degrees and its sine is the component of the direction of the Sun along the axis about which the satellite goes around. It is the same for all positions and speeds of one orbit, the opposite when the satellite goes around the other way, and for an orbit with inclination i and node W, with the Sun at right ascension a and declination d, its sine is cos d sin i sin(W - a) + sin d cos i.", "quantifier": "every position and velocity that are not along one line, every position of the Sun", "why_tests_cant": "The angle is computed from a cross product and a half-angle formula; that it does not depend on the place in the orbit is a statement about all places.", "anchors": [{"file": "src/tatc/analysis/track.py", "symbols": ["collect_orbit_track"]}]}
{"id": "C125", "title": "A satellite is sunlit exactly when it sees the Sun", "statement": "The sunlit state that is reported (sat_sunlit) and that observations are tested against (req_self_sunlit) is false exactly when the straight line from the satellite to the Sun meets the Earth (a ball of the radius at the equator). It agrees with the solar beta angle: a satellite whose orbit plane is far enough from the Sun is never in shadow.", "quantifier": "every position of satellite and Sun with the satellite outside of the Earth and no farther away than the Sun", "why_tests_cant": "Whether a line meets a ball is decided by a quadratic equation with boundary cases (no intersection, both intersections behind); tests sample directions.", "anchors": [{"file": "src/tatc/schemas/instrument.py", "symbols": ["Instrument.is_valid_observation"]}, {"file": "src/tatc/analysis/track.py", "symbols": ["collect_orbit_track"]}, {"file": "src/tatc/analysis/coverage.py", "symbols": ["collect_observations"]}]}
{"id": "C126", "title": "The reported solar time is the local solar time of the point", "statement": "The solar_time column of collect_observations is in [0, 24): 12 when the Sun is on the meridian of the point and one hour more for every 15 degrees that the point has turned on, starting again at midnight. Below the node of a sun-synchronous orbit it is the requested crossing time.", "quantifier": "every right ascension of the meridian and of the Sun; every sun-synchronous orbit", "why_tests_cant": "The hour angle wraps around; the value has to be right for every pair of angles.", "anchors": [{"file": "src/tatc/analysis/coverage.py", "symbols": ["collect_observations"]}, {"file": "src/tatc/schemas/orbit.py", "symbols": ["SunSynchronousOrbit.get_right_ascension_ascending_node"]}]}
{"id": "C127", "title": "Dilution of precision is how errors of ranges are amplified", "statement": "Whenever compute_dop gives a value, positioning by least squares from the visible satellites has exactly one solution for all errors of the ranges; the value is the root of the sum of the squares, in the components that the method is about, of the errors that unit errors of the ranges lead to; and whatever the errors of the ranges, the error in these components is at most the value times their size.", "quantifier": "every set of satellites in any directions and at any ranges, every minimum elevation, method and minimum count, all errors of ranges", "why_tests_cant": "The values are entries of the inverse of a matrix; that they bound errors of positions is a statement about all errors and all geometries.", "anchors": [{"file": "src/tatc/analysis/dop.py", "symbols": ["compute_dop"]}]}
{"id": "C128", "title": "Dilution of precision does not depend on where azimuths are measured from", "statement": "Turning all satellites by the same angle about the vertical of the point changes no value that compute_dop gives, and not whether it gives one.", "quantifier": "every set of satellites, every angle and method", "why_tests_cant": "Tests use a few constellations in one orientation.", "anchors": [{"file": "src/tatc/analysis/dop.py", "symbols": ["compute_dop"]}]}
{"id": "C129", "title": "The best possible dilution of precision", "statement": "With n visible satellites no value of compute_dop is below 1/sqrt(n) (vertical, time), 2/sqrt(n) (horizontal), 3/sqrt(n) (position), sqrt(10)/sqrt(n) (geometric).", "quantifier": "every set of satellites in any directions, every method", "why_tests_cant": "A minimum over all geometries cannot be sampled.", "anchors": [{"file": "src/tatc/analysis/dop.py", "symbols": ["compute_dop"]}]}
{"id": "C130", "title": "Points of the Fibonacci lattice are not close together", "statement": "No two points that generate_fibonacci_lattice_points returns are closer along the surface of the Earth than a third of the distance that was asked for.", "quantifier": "every distance up to one radius of the Earth, every mask (or none), all pairs of points", "why_tests_cant": "Neighbours in the lattice depend on latitude and on the number of points; tests look at a few lattices.", "anchors": [{"file": "src/tatc/generation/points.py", "symbols": ["generate_fibonacci_lattice_points"]}]}
{"id": "C131", "title": "The Fibonacci lattice is uniform over latitudes", "statement": "Between any two parallels there are as many points of the global lattice as the zone has of the area of the sphere, to within three points.", "quantifier": "every distance, every pair of parallels", "why_tests_cant": "All zones of all lattices.", "anchors": [{"file": "src/tatc/generation/points.py", "symbols": ["generate_fibonacci_lattice_points", "_compute_fibonacci_lattice_point_latitude"]}]}
{"id": "C132", "title": "The Fibonacci lattice leaves no gap", "statement": "Every place on the Earth has a point of the global lattice within twice the distance that was asked for.", "quantifier": "every distance up to a third of the radius of the Earth, every place", "why_tests_cant": "All places, at all latitudes, for all numbers of points.", "anchors": [{"file": "src/tatc/generation/points.py", "symbols": ["generate_fibonacci_lattice_points"]}]}
{"id": "C133", "title": "A streets of coverage constellation observes continuously", "statement": "At every time every place whose latitude does not exceed the inclination of a streets of coverage constellation is within half of the swath width, along the surface, of the point below some member.", "quantifier": "every altitude, inclination, swath width within the horizon and packing distance, all times (all angles by which the satellites have moved and the planes have turned), every place", "why_tests_cant": "Gaps open between satellites and between planes at particular times; a simulation looks at sampled times and places.", "anchors": [{"file": "src/tatc/schemas/satellite.py", "symbols": ["SOCConstellation.generate_walker", "SOCConstellation.generate_members"]}]}
{"id": "C134", "title": "Results do not depend on the origin of time", "statement": "Moving all observations (and all downlinks) by the same time moves the start, epoch and end of the aggregated rows, and the observed and downlinked times of the latencies, by that time, and changes neither access, revisit and latency nor the frames that reduce_observations and reduce_latencies give.", "quantifier": "every list of observations and downlinks, every time by which they are moved", "why_tests_cant": "Tests use one date; a comparison with a fixed time or a rounding to a calendar unit shows only at other dates.", "anchors": [{"file": "src/tatc/analysis/coverage.py", "symbols": ["aggregate_observations", "reduce_observations"]}, {"file": "src/tatc/analysis/latency.py", "symbols": ["compute_latencies", "reduce_latencies"]}]}
{"id": "C135", "title": "Observations are delivered in the order in which they were made", "statement": "Of two observations of one satellite the one that ends first is not reported to be downlinked after the other.", "quantifier": "every list of observations and downlinks", "why_tests_cant": "Overlapping contacts with several stations give the counterexamples; tests use a few contacts.", "anchors": [{"file": "src/tatc/analysis/latency.py", "symbols": ["compute_latencies"]}]}
{"id": "C136", "title": "Access and revisit times account for the whole time", "statement": "For every point the number of samples times the mean access time and the number less one times the mean revisit time add up to the time from the first start to the last end of its observations, up to the rounding of the means.", "quantifier": "every list of observations with any overlaps", "why_tests_cant": "The two means are computed from different columns and rows; that they fit together is a statement about all observations.", "anchors": [{"file": "src/tatc/analysis/coverage.py", "symbols": ["aggregate_observations", "reduce_observations"]}]}
{"id": "C137", "title": "A wider field of regard never gives less access", "statement": "With a wider field of regard, everything else unchanged, the total access time of a point is not less.", "quantifier": "every number of satellites and instruments, every window, all motions of the satellites above the point, all fields of regard and minimum access times", "why_tests_cant": "Wider views merge passes; whether that loses access depends on times and settings that tests do not sample.", "anchors": [{"file": "src/tatc/analysis/coverage.py", "symbols": ["collect_observations", "collect_multi_observations", "aggregate_observations"]}, {"file": "src/tatc/utils.py", "symbols": ["compute_min_elevation_angle"]}]}
{"id": "C138", "title": "The epoch of an orbit survives its conversion to two line elements", "statement": "The epoch that get_epoch returns is the date and time written in the first line of the element set; the element set that to_tle gives for an orbit has the epoch of the orbit, to half of a hundred-millionth of a day; and element sets of epochs in order are accepted as chronological.", "quantifier": "every epoch of an orbit, every element set in the standard layout, every list of element sets", "why_tests_cant": "Days are counted within years with and without leap days, rounded, and years are written with two digits; tests use a few dates.", "anchors": [{"file": "src/tatc/schemas/orbit.py", "symbols": ["TwoLineElements.get_epoch", "KeplerianOrbit.to_tle"]}, {"file": "src/tatc/utils.py", "symbols": ["is_chronological_tle"]}]}
{"id": "C139", "title": "Members of a constellation never meet", "statement": "Two members of a Walker or streets of coverage constellation on a circular orbit are never at the same place at the same time; how near two of them come follows from the numbers of satellites and planes, the relative spacing and the inclination.", "quantifier": "all numbers of satellites, planes and relative spacings, delta and star configurations, circular orbits, swath widths, packing distances, pairs of members and times", "why_tests_cant": "Pairs of members come closest for an instant once in half an orbit; a test that samples times sees neither the least distance nor that it is 0, and whether it is depends on the inclination through an equation between tangents.", "anchors": [{"file": "src/tatc/schemas/satellite.py", "symbols": ["WalkerConstellation.generate_members", "WalkerConstellation.get_delta_mean_anomaly_within_planes", "WalkerConstellation.get_delta_mean_anomaly_between_planes", "WalkerConstellation.get_delta_raan_between_planes", "SOCConstellation.generate_walker", "SOCConstellation.generate_members"]}]}
{"id": "C140", "title": "Derived orbits are valid in double precision", "statement": "Deriving an orbit by any increases of mean anomaly and right ascension of the ascending node gives an orbit (no error), when computed with double precision numbers; angles are those given plus the increases, up to whole turns and a billionth of a degree; increases of nothing change nothing.", "quantifier": "every circular orbit and every pair of double precision increases, with every rounding that arises", "why_tests_cant": "np.mod of a tiny negative number rounds to 360.0, which the fields refuse: a set of inputs of measure zero that random tests never meet but equal steps forwards and back do.", "anchors": [{"file": "src/tatc/schemas/orbit.py", "symbols": ["CircularOrbit.get_derived_orbit", "CircularOrbit.get_mean_anomaly"]}, {"file": "src/tatc/utils.py", "symbols": ["mean_anomaly_to_true_anomaly", "true_anomaly_to_mean_anomaly"]}]}
{"id": "C141", "title": "Rounding does not change the number of satellites in a plane", "statement": "The number of satellites per plane that a Walker constellation reports is the least with which its planes hold all of its satellites, though it is computed from a quotient that is rounded.", "quantifier": "all numbers of satellites and planes", "why_tests_cant": "A quotient that is rounded up across an integer would add a satellite to each plane, for particular large pairs of numbers only.", "anchors": [{"file": "src/tatc/schemas/satellite.py", "symbols": ["WalkerConstellation.get_satellites_per_plane"]}]}
{"id": "C142", "title": "Identifiers of points are unique with distances that divide the circumference", "statement": "generate_equally_spaced_points gives every point its own point_id when the distance is an n-th part of the circumference of the Earth, as computed with double precision numbers; and with any other distance exactly when it does so in exact arithmetic.", "quantifier": "every distance between 1 m and 20000 km, with every rounding that arises", "why_tests_cant": "The quotient 360 / step is rounded to the nearest integer for the columns but cut off for the identifiers; whether it falls just below n depends on the last digit, for about a third of all n.", "anchors": [{"file": "src/tatc/generation/points.py", "symbols": ["generate_equally_spaced_points", "_compute_equally_spaced_point_id", "_generate_equally_spaced_indices"]}]}
{"id": "C143", "title": "Members of a mutual orbiting group circle the reference on an ellipse with the requested axes", "statement": "Under two-body motion every member generated from a MOGConstellation goes once per orbit round the satellite that is at the ascending node of the reference orbit at the epoch: seen from it, half the parallel axis ahead and behind, a quarter of the parallel axis above and below and half the transverse axis to either side, clockwise seen from above if clockwise was asked for; the members are equally spaced on this ellipse. This up to terms quadratic in the axes divided by the radius of the orbit.", "quantifier": "every group (any reference orbit, axes up to the radius and the diameter of the orbit, either sense, any number of members), every member and every later time", "why_tests_cant": "The relative motion follows from six orbital elements of each member over all times; tests compare elements at the epoch with stored values, if at all.", "anchors": [{"file": "src/tatc/schemas/satellite.py", "symbols": ["MOGConstellation"]}]}
{"id": "C144", "title": "All members of a Walker constellation play the same part", "statement": "For any two members generated from a WalkerConstellation, the constellation seen from one is the constellation seen from the other: there is a pairing of the members that takes one to the other and keeps all differences of nodes and anomalies, so that on circular orbits the whole constellation at any time is the constellation at another time, turned about the axis of the Earth. (So the observations of one member say what those of any other are like.)", "quantifier": "every constellation (any satellites, planes, relative spacing, pattern and lead orbit), every pair of members, every time", "why_tests_cant": "The symmetry relates all members of constellations of every size; a test can compare a few members of a few constellations.", "anchors": [{"file": "src/tatc/schemas/satellite.py", "symbols": ["WalkerConstellation"]}]}
{"id": "C145", "title": "The number of samples is right and falls with distance in double precision", "statement": "For every sample distance from 13.5 cm to the circumference of the Earth the number of samples returned, computed with double precision numbers, does not grow when the distance grows; for distances from a metre to half way round the Earth the caps cover the surface to within one cap and a part 1/(4 d^2) (d in metres) of the surface. The full claim, that a number is returned for every positive distance, is false: up to 13.4 cm a division by zero is raised, because the cosine is rounded to one.", "quantifier": "every distance (a real number of metres) and every value of the constant for the surface of the Earth", "why_tests_cant": "The claim is about rounding at every distance; cancellation makes the number inaccurate only for distances nobody tries.", "anchors": [{"file": "src/tatc/utils.py", "symbols": ["compute_number_samples"]}]}
{"id": "C146", "title": "The Fibonacci lattice is a lattice of distinct points in double precision", "statement": "For every distance from a metre to half way round the Earth, the points generated without a mask, computed with double precision numbers, are as many as the samples and numbered from zero; their latitudes are strictly between the poles and strictly increase, so that no two points coincide; longitudes are in (-180, 180]; sines of latitude differ from those of the exact lattice by at most 2^-49, and longitudes by at most 6e-14 degrees for every point before.", "quantifier": "every distance (a real number of metres) from 1 to 20 000 000, every elevation, every value up to 5.2e14 of the constant for the surface of the Earth", "why_tests_cant": "Neighbouring points of lattices of up to 8e14 points differ by a few units in the last place of the sine of latitude; whether all of them differ after rounding cannot be tried.", "anchors": [{"file": "src/tatc/generation/points.py", "symbols": ["generate_fibonacci_lattice_points", "_compute_fibonacci_lattice_point_latitude", "_compute_fibonacci_lattice_point_longitude"]}]}
{"id": "C147", "title": "A mask selects exactly the points of the lattice within it in double precision", "statement": "For every valid mask the points generated, computed with double precision numbers, are the points of the global lattice that lie in the mask (longitudes taken modulo 360), with the same identifiers, latitudes and elevations, and longitudes that differ by a whole turn exactly.", "quantifier": "every distance, elevation and mask", "why_tests_cant": "A rounding in the longitude could move a point across the boundary of a mask; masks and points near boundaries are unbounded in number.", "anchors": [{"file": "src/tatc/generation/points.py", "symbols": ["generate_fibonacci_lattice_points", "_compute_fibonacci_lattice_point_longitude"]}]}
{"id": "C148", "title": "Viewing geometry survives rounding", "statement": "Computed with double precision numbers, for every instrument at or above the surface it looks at: the minimum elevation angle of a field of regard is a number in [0, 90], not larger for a wider field of regard, and within 1e-5 degrees of the exact one; the field of regard of a minimum elevation angle is a number in [0, 180], not larger for a larger angle, and within 2e-5 degrees of the exact one; converting a minimum elevation angle to a field of regard and back returns it to within 1e-5 degrees; the swath width of a field of regard is within 7e-7 of the radius of the surface (4.5 m) of the exact one. No inverse sine or cosine is ever taken of a number above one.", "quantifier": "every elevation from 10 km below the datum, every altitude from the elevation up to a million kilometres, every field of regard in [0, 180] and every minimum elevation angle in [0, 90] degrees", "why_tests_cant": "Close to the horizon the inverse cosine magnifies a rounding ten million times, and an argument above one by one unit in the last place gives NaN; the inputs where this could happen are isolated and cannot be enumerated.", "anchors": [{"file": "src/tatc/utils.py", "symbols": ["field_of_regard_to_swath_width", "compute_field_of_regard", "compute_min_elevation_angle"]}]}
{"id": "C149", "title": "The true anomaly survives conversion to an element set", "statement": "The true anomaly that the element set of an orbit reports is the orbit's own, to the digits of the format.", "quantifier": "every accepted circular, sun-synchronous and Keplerian orbit above the surface with an epoch from 1957 to 2056", "why_tests_cant": "The element set stores the mean anomaly with four decimals and the eccentricity with seven; how far these and the truncated series move the true anomaly must be bounded over all eccentricities and angles.", "anchors": [{"file": "src/tatc/schemas/orbit.py", "symbols": ["TwoLineElements.get_true_anomaly", "CircularOrbit.to_tle", "SunSynchronousOrbit.to_tle", "KeplerianOrbit.to_tle"]}, {"file": "src/tatc/utils.py", "symbols": ["mean_anomaly_to_true_anomaly", "true_anomaly_to_mean_anomaly"]}]}
{"id": "C150", "title": "Asking less loses no observation and no delivery", "statement": "With the satellites, instruments and ground stations that there were, none of which asks more (minimum access times not longer, tests not stricter), and possibly others, every observation row is still collected, total access time of a point is not less, and every observation that was delivered is still delivered, at a contact that does not start later.", "quantifier": "every list of constellations, members and instruments, all visible periods, minimum access times and tests, every list of ground stations with all their contacts", "why_tests_cant": "It relates two runs with arbitrary many rows each; a test compares two particular runs.", "anchors": [{"file": "src/tatc/analysis/coverage.py", "symbols": ["collect_observations", "collect_multi_observations", "aggregate_observations"]}, {"file": "src/tatc/analysis/latency.py", "symbols": ["collect_downlinks", "compute_latencies"]}]}
{"id": "C151", "title": "Equally spaced cells computed with double precision numbers tile the globe and contain their own points", "statement": "With the double precision numbers the code computes, for distances from 1 m to 20,000 km and without a mask: generate_equally_spaced_points and generate_equally_spaced_cells give the same identifiers in the same order; every point lies strictly inside the cell in its place and in no other cell, so that joining points with cells attaches every point to exactly one cell; the interiors of two cells or strips never meet; every position is in a cell or strip unless it is within half a step of the antimeridian in the east or of the north pole; and no cell or strip reaches more than half a step (and 1e-12 degrees) beyond these.", "quantifier": "every distance between 1 m and 20,000 km, every pair of rows, every position, with and without strips", "why_tests_cant": "rounding could open a gap or an overlap of one unit in the last place between two cells, or put a point on the boundary of two, for some distance among about 1e17 double precision numbers", "anchors": [{"file": "src/tatc/generation/cells.py", "symbols": ["generate_equally_spaced_cells", "_generate_equally_spaced_cells"]}, {"file": "src/tatc/generation/points.py", "symbols": ["generate_equally_spaced_points", "_generate_equally_spaced_indices"]}]}
{"id": "C152", "title": "Rows of generated points are valid points", "statement": "Every row that generate_fibonacci_lattice_points or generate_equally_spaced_points returns (without a mask) can be made a Point: its identifier is not negative, its latitude is between -90 and 90 and its longitude between -180 and 180, as double precision numbers.", "quantifier": "every distance between 1 m and 20,000 km, every row, every elevation", "why_tests_cant": "the distances for which a coordinate leaves the range by one unit in the last place are isolated double precision numbers, which a test with round distances does not meet", "anchors": [{"file": "src/tatc/generation/points.py", "symbols": ["generate_fibonacci_lattice_points", "generate_equally_spaced_points"]}, {"file": "src/tatc/schemas/point.py", "symbols": ["Point"]}]}
{"id": "C153", "title": "The members of a mutual orbiting group are placed in finite time in double precision", "statement": "With double precision numbers and a sine that is within one unit in the last place of one, the iteration that places a member of a MOGConstellation ends, for every eccentricity up to 1 - 1e-8 and every anomaly; the eccentric anomaly psi it gives solves Kepler's equation psi - e sin psi = n to 1.00001e-6 and is within 1.00001e-6/(1-e) of the solution.", "quantifier": "every anomaly that an inverse tangent gives, every eccentricity in [0, 1 - 1e-8], every such sine", "why_tests_cant": "rounding could make the iterates oscillate by more than the tolerance, for one of infinitely many pairs of anomaly and eccentricity, and the loop has no bound on its steps", "anchors": [{"file": "src/tatc/schemas/satellite.py", "symbols": ["MOGConstellation.generate_members"]}]}
{"id": "C154", "title": "Access and revisit depend only on when each point is observed", "statement": "The rows of aggregate_observations (points, starts, ends, access times and revisits) of two frames are equal exactly if both frames observe the same points at the same instants, and then the frames of reduce_observations are equal as well: it does not matter who observes, in which order the rows come, how the instants are cut into observations or how often they are reported. In particular a satellite or instrument all of whose observations lie within observations of others changes nothing in these columns. (The mean epoch of a row does depend on how often an observation is reported.)", "quantifier": "every two observation frames whose observations end no earlier than they start; every point; every instant, also between ticks; every sort of the rows", "why_tests_cant": "The set of instants is infinite and the frames arbitrary: a test compares a few pairs of frames; that nothing else in a frame can influence the columns is a statement over all pairs.", "anchors": [{"file": "src/tatc/analysis/coverage.py", "symbols": ["aggregate_observations", "reduce_observations"]}]}
{"id": "C155", "title": "Gridding loses no samples and gives values between those of the points", "statement": "grid_observations and grid_latencies return a frame exactly if every cell that contains a reduced point has an index label that the reduced frame has as well. Of every frame that they return for a non-empty reduced frame: rows come in increasing order of cell_id, there is exactly one for each cell that contains a point, its samples are the sum of those of the points in the cell, each of its values (access, revisit, latency) is missing exactly if that of one of its points is, and otherwise lies between the smallest and the largest of its points. The samples of all rows add up to the samples of the points, each counted once for every cell that contains it: if every point lies in exactly one cell, none is lost or duplicated.", "quantifier": "every reduced frame whose rows have samples, every cells frame with distinct identifiers and arbitrary index labels, every containment relation between cells and points, any number of value columns", "why_tests_cant": "frames, labels and containment are arbitrary; C07 shows that the mean is not the documented one, so what can be relied on has to be established for all inputs", "anchors": [{"file": "src/tatc/analysis/coverage.py", "symbols": ["grid_observations"]}, {"file": "src/tatc/analysis/latency.py", "symbols": ["grid_latencies"]}]}
{"id": "C156", "title": "Wider limits and more transmitters lose no occultation", "statement": "collect_ro_observations with a larger max_yaw (below 180 degrees), a wider range_elevation and more transmitters still reports every occultation: for each row there is a row of the same receiver and transmitter that starts no later, ends no earlier and has all of its tangent points, contiguous and in the same order. The rows of several transmitters together are exactly the rows of each of them.", "quantifier": "every two settings of which one is wider, every list of transmitters, every motion of receiver and transmitters, every increasing list of times", "why_tests_cant": "rows of the wider setting are different rows (longer arcs, merged arcs, other sample points): that none is lost for any motion and any pair of settings is not a matter of examples; the modulo of the yaw test is not monotone on its face", "anchors": [{"file": "src/tatc/analysis/ro_coverage.py", "symbols": ["collect_ro_observations", "_collect_ro_series"]}]}
{"id": "C157", "title": "How often a point is seen and how soon its observations arrive", "statement": "No revisit in the aggregated frame of a point is longer than T exactly if, between the first and the last time at which it is observed, every period of length T includes an instant at which it is observed; then the mean revisit is not longer either. If a contact that is long enough begins within W of the end of an observation, and no contact lasts longer than L, the observation is delivered and its latency is at most the time from its epoch to its end, W and half of L; if this holds of all observations of a point, its mean latency exists and is at most the sum.", "quantifier": "every frame of observations of any satellites, every point, every T; every list of ground stations with all their visible periods and minimum access times, every W and L", "why_tests_cant": "a guarantee over all instants and all observations: no finite set of frames shows that a long gap is never hidden by merging, or that no delivery is later", "anchors": [{"file": "src/tatc/analysis/coverage.py", "symbols": ["aggregate_observations", "reduce_observations"]}, {"file": "src/tatc/analysis/latency.py", "symbols": ["collect_downlinks", "compute_latencies", "reduce_latencies"]}]}
{"id": "C158", "title": "Mean access, revisit and latency survive rounding", "statement": "With the double precision arithmetic of the machine, however many observations there are (up to 2^48), reduce_observations and reduce_latencies give one row per point with its number of observations; each mean is missing exactly if all its values are; it is off from the true mean by at most half a microsecond and 12 parts in 2^53 of the mean of the absolute values; it lies between whole microseconds that bound all values (durations below nine years); it is the nearest microsecond unless the true mean is within that error of half a microsecond; and it differs from what exact arithmetic gives by at most one microsecond (durations below 22 years).", "quantifier": "every aggregated frame and every frame of latencies with at most 2^48 rows, every value that does not overflow", "why_tests_cant": "rounding errors accumulate over unbounded sums: no finite set of frames bounds them", "anchors": [{"file": "src/tatc/analysis/coverage.py", "symbols": ["reduce_observations"]}, {"file": "src/tatc/analysis/latency.py", "symbols": ["reduce_latencies"]}]}
{"id": "C159", "title": "Epochs of merged observations survive rounding", "statement": "With the double precision arithmetic of the machine, aggregate_observations gives the rows of exact arithmetic, and no epoch is off by more than 2.5 microseconds for time stamps until 2043. If the epoch of every observation is at least 2.5 microseconds within it, the epoch of every row is within the row. Without this margin that is false: a row can have an epoch before its start.", "quantifier": "every frame of at most 2^48 observations with time stamps below 2^61 nanoseconds, every order of equal starts", "why_tests_cant": "rounding errors accumulate over unbounded sums, and the failure needs a time stamp that is no multiple of 256 nanoseconds", "anchors": [{"file": "src/tatc/analysis/coverage.py", "symbols": ["aggregate_observations"]}]}
{"id": "C160", "title": "A point is observed exactly while a satellite sees it", "statement": "With instruments without minimum access time, fixed access time or failing tests, on satellites on circular orbits up to 10000 km high in any planes, a point anywhere on the turning Earth is in a row of the collected and aggregated observations at every time at which it is above the horizon of and within half the field of regard of an instrument, and at no other, except within the accuracy of the reported rises and sets; its total access time is the time during which an instrument sees it, to within twice that accuracy for every rise and set.", "quantifier": "any number of constellations, members and instruments, all altitudes, orbit planes and fields of regard (0.3 to 180 degrees if rises and sets are right to a second), every place, every window, every event list that is right to the tolerance", "why_tests_cant": "it connects geometry at every instant, of which there is a continuum, with what the matching of events keeps; no sampled run shows that no pass is dropped", "anchors": [{"file": "src/tatc/analysis/coverage.py", "symbols": ["collect_observations", "_get_visible_interval_series", "collect_multi_observations", "aggregate_observations"]}, {"file": "src/tatc/utils.py", "symbols": ["compute_min_elevation_angle", "compute_max_access_time"]}]}
{"id": "C161", "title": "A contact lasts exactly while the satellite stands above the minimum elevation of the station", "statement": "For a satellite on a circular orbit up to 10000 km high in any plane: during every row of the collected downlinks the satellite stands above the minimum elevation angle of the named station, from a rise or the start of the window to a set or its end, for at least the minimum access time; and whenever it stands above that angle there is such a row, or the pass is shorter than the minimum access time. A computed latency row names a station over which the satellite rises after the observation ends, downlinks in the middle of that pass, and no contact with any station can start between; a row without station is one after which no contact can start in the window. (All except within the accuracy of reported rises and sets.)", "quantifier": "any number of stations anywhere, all minimum elevation and access times, all altitudes up to 10000 km and orbit planes, every window, every event list that is right to the tolerance, every observation list", "why_tests_cant": "it connects geometry at every instant with what matching of events, filtering and the as-of merge keep; sampled runs cannot show that no contact is missed or invented", "anchors": [{"file": "src/tatc/analysis/latency.py", "symbols": ["collect_downlinks", "compute_latencies"]}, {"file": "src/tatc/analysis/coverage.py", "symbols": ["_get_visible_interval_series"]}, {"file": "src/tatc/utils.py", "symbols": ["compute_max_access_time"]}]}
{"id": "C162", "title": "Wider swaths never need more satellites", "statement": "Every streets of coverage constellation that the schema accepts can be generated; its number of planes, of satellites in a plane and of satellites depends only on the swath width and the packing distance, not on the altitude or the orbit, and none of them is larger for a wider swath or for footprints packed further apart.", "quantifier": "every pair of constellations: all altitudes, orbits, swath widths and packing distances", "why_tests_cant": "a monotonicity over a continuum through two inverse sines and two ceilings; a test compares finitely many designs", "anchors": [{"file": "src/tatc/schemas/satellite.py", "symbols": ["SOCConstellation"]}, {"file": "src/tatc/utils.py", "symbols": ["swath_width_to_field_of_regard", "compute_min_elevation_angle"]}]}
{"id": "C163", "title": "Exactly the documented arguments are accepted", "statement": "An instrument, orbit, point, ground station, satellite or constellation can be made exactly when every argument that must be given is given and every argument given has the documented type and range (a Walker constellation: also no more planes than satellites and a relative spacing below the number of planes; an orbit of a kind the constellation takes; at least one instrument). Everything else is refused with a validation error. The object made has the values that were given and the documented defaults for the others. Hence the orbits and Walker constellations that exist are the valid ones that the other properties assume.", "quantifier": "every class of object, every set of keyword arguments (present, missing, of any type, of any value, with extra keys)", "why_tests_cant": "tests try a few wrong values per argument; the claim is an equivalence over all argument sets of all classes", "anchors": [{"file": "src/tatc/schemas/instrument.py", "symbols": ["Instrument", "PointedInstrument"]}, {"file": "src/tatc/schemas/orbit.py", "symbols": ["TwoLineElements", "OrbitBase", "CircularOrbit", "SunSynchronousOrbit", "KeplerianOrbit", "MolniyaOrbit", "TundraOrbit"]}, {"file": "src/tatc/schemas/satellite.py", "symbols": ["Satellite", "TrainConstellation", "WalkerConstellation", "MOGConstellation", "SOCConstellation"]}, {"file": "src/tatc/schemas/point.py", "symbols": ["Point", "GroundStation"]}]}
{"id": "C164", "title": "Settings count from the time they are changed", "statement": "A call uses the arguments it is given and, for those left out, the settings at the time of the call: whether repeat cycles are used for orbit tracks and for observation events, the tolerances, elevation and duration of the search for them, whether a stored repeat cycle may be loaded, and the number of points of a footprint. This holds in any sequence of calls and changes of settings.", "quantifier": "every sequence of changes of settings, repeat-cycle queries, orbit tracks, observation events and footprints on one object, with any arguments given or left out, and every outcome of the search", "why_tests_cant": "the claim is about histories: which call first made the search decides what all later calls use", "anchors": [{"file": "src/tatc/schemas/orbit.py", "symbols": ["get_repeat_cycle", "get_orbit_track", "get_observation_events"]}, {"file": "src/tatc/utils.py", "symbols": ["compute_footprint"]}, {"file": "src/tatc/config.py", "symbols": ["RuntimeConfiguration", "rc"]}]}
{"id": "C165", "title": "Splitting a split geometry again changes nothing", "statement": "Splitting a polygon or multipolygon at the antimeridian and the poles gives a result that can be split again, and splitting it again covers the same places; when no two neighbouring vertices of the result are exactly half a turn apart, splitting again returns the same parts, coordinate by coordinate and in the same order.", "quantifier": "every polygon and multipolygon with any number of parts and vertices whose parts are closed rings, less than 360 degrees wide (with holes drawn between the longitudes of the exterior) or around a pole without heights, also when they are given with latitudes beyond a pole; every geometry library that cuts exactly", "why_tests_cant": "the claim is about all rings of vertices, and about a second call on whatever the first returned; footprints and masks are split again at every stage of an analysis", "anchors": [{"file": "src/tatc/utils.py", "symbols": ["split_polygon", "_split_polygon_antimeridian", "_split_polygon_north_pole", "_split_polygon_south_pole", "normalize_geometry"]}]}
{"id": "C166", "title": "Footprints, limbs and projected positions of several times are those of each time, in order", "statement": "Given an orbit track of an array of times, the footprint, the limb and the position of a projected ray come as a list with one entry for each time, in the order of the times, and each entry is what the same call gives for that time alone; the call fails when it fails for one of the times.", "quantifier": "every array of satellite states of any length, every field of view, pointing, shape, number of points and elevation, every way the polygon of the vertices is built or rejected", "why_tests_cant": "the number of times is unbounded and the vectorised code computes all times of one ray before all rays of one time, so that the entries are a transposition that has to be right for every size", "anchors": [{"file": "src/tatc/utils.py", "symbols": ["compute_projected_ray_position", "compute_footprint", "compute_limb"]}]}
{"id": "C167", "title": "What splitting returns is valid, and only what is invalid is repaired", "statement": "Splitting a geometry on the globe returns a valid Polygon or MultiPolygon: a valid result of the cuts is returned as it is, part by part, an invalid one is replaced by exactly the polygons of the repaired geometry, and the returned geometry can be given an elevation, which then is that of every vertex. A mask that is not valid is refused, and only such a mask is refused.", "quantifier": "every polygon and multipolygon that can be cut, every elevation, every way shapely judges and repairs geometries", "why_tests_cant": "which footprints come out invalid depends on orbit, pointing and latitude; the repair has to be right for all of them", "anchors": [{"file": "src/tatc/utils.py", "symbols": ["split_polygon", "_convert_collection_to_polygon", "project_polygon_to_elevation", "normalize_geometry"]}]}
{"id": "C168", "title": "Orbit periods, mean motions and longest accesses survive rounding", "statement": "The orbit period and the longest access of a point, computed with double precision numbers and converted to whole microseconds, are less than two thirds of a microsecond off the exact formulas, at most one off their values in whole microseconds, and not negative; the mean motion is off by at most three parts in ten billions. A higher orbit never has a shorter period, and neither a higher orbit nor a lower minimum elevation ever has a shorter longest access.", "quantifier": "every altitude from ten kilometres below the surface to a million kilometres, every minimum elevation from 0 to 90 degrees", "why_tests_cant": "the claim is about all double precision inputs; cancellation near 90 degrees and the double rounding of the period to a time difference are not reached by samples", "anchors": [{"file": "src/tatc/utils.py", "symbols": ["compute_orbit_period", "compute_max_access_time"]}, {"file": "src/tatc/schemas/orbit.py", "symbols": ["OrbitBase.get_orbit_period", "OrbitBase.get_mean_motion"]}, {"file": "src/tatc/analysis/coverage.py", "symbols": ["_get_visible_interval_series"]}]}
{"id": "C169", "title": "Total access does not depend on the meridian or hemisphere", "statement": "When the nodes of all satellites of a constellation and the longitude of a point are turned by the same angle, the total access time of the point is the same, to within twice the tolerance of the reported rises and sets for each of them. So it is when the node and the start of each satellite are opposite and the point is as far south as it was north.", "quantifier": "every constellation of satellites on circular orbits up to 10000 km high, every list of instruments, point, angle and analysis window, and every pair of event reports within the tolerance", "why_tests_cant": "the claim relates two whole analyses for every constellation and every angle; a test compares two runs, and rounding of rises and sets hides small errors", "anchors": [{"file": "src/tatc/analysis/coverage.py", "symbols": ["collect_multi_observations", "collect_observations", "aggregate_observations", "_get_visible_interval_series"]}, {"file": "src/tatc/utils.py", "symbols": ["compute_min_elevation_angle", "compute_max_access_time"]}]}
{"id": "C170", "title": "The rows of a point are the passes of the satellites over it", "statement": "Every row collected for a point is of a pass during which the satellite sees the point from rise to set, or from the start or to the end of the analysis, that lasts at least the minimum access time and meets the tests of the instrument; it names the satellite and instrument, its epoch is the middle of the pass, and it spans the pass, or with fixed access times the minimum access time around the middle. Whenever an instrument sees the point there is such a row, unless the pass is shorter than the minimum access time or fails a test.", "quantifier": "every constellation of satellites on circular orbits up to 10000 km high, every list of instruments with any minimum or fixed access time and any tests, every point, window and time in it", "why_tests_cant": "a pass is continuous and the claim is about every time in it; tests look at few passes and cannot exclude that another one is lost or invented", "anchors": [{"file": "src/tatc/analysis/coverage.py", "symbols": ["collect_multi_observations", "collect_observations", "_get_visible_interval_series"]}, {"file": "src/tatc/utils.py", "symbols": ["compute_min_elevation_angle", "compute_max_access_time"]}]}
{"id": "C171", "title": "A revisit time is a time during which no satellite sees the point", "statement": "During each revisit time that is reported for a point no instrument of any satellite sees the point, except within the tolerance of a rise or set of that instrument; and a time during which no satellite sees the point, before and after which it is seen, is reported as a revisit time at least as long.", "quantifier": "every constellation of satellites on circular orbits up to 10000 km high, every list of instruments without minimum access times, every point, window and gap", "why_tests_cant": "revisit times are computed from the merged passes of all satellites; that no satellite anywhere in the gap sees the point is a statement about every time and every satellite", "anchors": [{"file": "src/tatc/analysis/coverage.py", "symbols": ["collect_multi_observations", "collect_observations", "aggregate_observations", "_get_visible_interval_series"]}]}
{"id": "C172", "title": "Access recurs with the orbits and the days", "statement": "After a delay that is a whole number of orbits of every satellite, the total access time of a point over the delayed window is that of the window before at the longitude to which the Earth has turned; if the delay is also a whole number of sidereal days (a repeating ground track), every point has the same total access time as before, to within twice the tolerance for every rise and set of the two analyses.", "quantifier": "every constellation of satellites on circular orbits up to 10000 km high, every list of instruments without minimum access times, every point, window and delay", "why_tests_cant": "the property compares two runs of the analysis for every delay and window; a test compares two runs for one ground track", "anchors": [{"file": "src/tatc/analysis/coverage.py", "symbols": ["collect_multi_observations", "collect_observations", "aggregate_observations", "_get_visible_interval_series"]}, {"file": "src/tatc/utils.py", "symbols": ["compute_orbit_period"]}]}
{"id": "C173", "title": "From the pass over a point to the arrival of its data on the ground", "statement": "Every row of the latencies of a point is of a pass of a satellite over it during which an instrument sees it, that is long enough and meets the tests of the instrument; its data is downlinked in the middle of the first contact that this satellite can start after the observation, while it stands above the minimum elevation angle of the named station, and latency is the time between the two middles; without a station no contact can start any more. Conversely every such pass has such a row, if any satellite has a contact in the window.", "quantifier": "every constellation of satellites with different names on circular orbits up to 10000 km high, every list of instruments and ground stations with any minimum access times, every point and window", "why_tests_cant": "the statement joins the whole chain from geometry over visible periods, records and the merge of frames to the latencies, for every time, satellite and station", "anchors": [{"file": "src/tatc/analysis/coverage.py", "symbols": ["collect_multi_observations", "collect_observations", "_get_visible_interval_series"]}, {"file": "src/tatc/analysis/latency.py", "symbols": ["collect_downlinks", "compute_latencies"]}]}
{"id": "C174", "title": "Streets of coverage designs survive rounding", "statement": "generate_walker of a streets-of-coverage constellation, computed in double precision, returns a valid Walker constellation of p planes of s satellites, where s and p are the least numbers that keep neighbouring satellites within the packing distance times a footprint diameter and neighbouring planes within the square root of 3 over 2 times that, up to a few tens of metres.", "quantifier": "Every accepted design whose swath lies within the horizon, with every double-precision operation of the computation rounded.", "why_tests_cant": "Rounding errors are amplified where an arc cosine is close to 1 and by the final ceiling; a test sees a few designs, and not the tiny swath for which rounding swallows the footprint.", "anchors": [{"file": "src/tatc/schemas/satellite.py", "symbols": ["SOCConstellation.generate_walker"]}, {"file": "src/tatc/utils.py", "symbols": ["swath_width_to_field_of_regard", "compute_min_elevation_angle"]}]}
{"id": "C175", "title": "Requested swaths survive rounding", "statement": "The field of regard that swath_width_to_field_of_regard computes in double precision lies between 0 and 180 degrees and within 1e-10 degrees of the exact one, and field_of_regard_to_swath_width, given that field of regard and also computed in double precision, returns the requested swath within 25 m.", "quantifier": "Every altitude from 100 to 100000 km and every swath width of at least 1 km that lies within the horizon, at elevation 0, with every double-precision operation rounded.", "why_tests_cant": "Close to the horizon the swath changes without bound with the field of regard, so the error of a round trip is that of the square root of a rounding error; sampled round trips far from the horizon do not show it.", "anchors": [{"file": "src/tatc/utils.py", "symbols": ["swath_width_to_field_of_regard", "field_of_regard_to_swath_width"]}]}
{"id": "C176", "title": "Fields of view of swaths survive rounding", "statement": "The field of view that swath_width_to_field_of_view computes in double precision is a number (no inverse sine or cosine of a value beyond one) and lies within 0.03 degrees of the exact one, hence of the angle at the satellite between the ends of a swath whose centre is seen at half of the look angle; a swath of no width has a field of view of exactly 0.", "quantifier": "Every altitude from 100 to 100000 km, every swath width from 0 to 50000 km and every look angle from 0 to 180 degrees, at elevation 0, with every double-precision operation rounded.", "why_tests_cant": "Where the look angle grazes the horizon the central angle has an unbounded derivative, so a rounding error grows to its square root; no sample of look angles bounds that growth.", "anchors": [{"file": "src/tatc/utils.py", "symbols": ["swath_width_to_field_of_view"]}]}
{"id": "C177", "title": "Ground velocity and along-track conversions survive rounding", "statement": "In double precision compute_ground_velocity is within 2e-9 m/s of the exact result, between 100 and 20000 m/s and never larger for a higher satellite; along_track_distance_to_access_time and access_time_to_along_track_distance are within one part in ten billions of the exact results, and each undoes the other up to a relative error of 1.2e-15.", "quantifier": "Every altitude from 0 to 30000 km and inclination from 0 to 180 degrees, every distance of at least a micrometre and every time of at least a microsecond, with every double-precision operation rounded.", "why_tests_cant": "The ground velocity is a difference of two rates that nearly cancel towards geostationary altitude, and the angle of the cosine is as large as ten thousand; only an error analysis for all altitudes and inclinations bounds the loss.", "anchors": [{"file": "src/tatc/utils.py", "symbols": ["compute_ground_velocity", "along_track_distance_to_access_time", "access_time_to_along_track_distance"]}]}
{"id": "C178", "title": "Anomalies survive rounding", "statement": "In double precision mean_anomaly_to_true_anomaly is within 1e-11 degrees, and true_anomaly_to_mean_anomaly within 1e-10 degrees, of the exact sum of its series. Hence the true anomaly is that of the equation of Kepler, and a mean anomaly turned into a true anomaly and back is the same, but for the fourth order of the eccentricity and 1e-10 degrees; on circular orbits anomalies come back within 1e-10 degrees.", "quantifier": "Every eccentricity from 0 to 1 (below 1 for the round trip and the equation of Kepler) and every anomaly from -720 to 720 degrees, with every double-precision operation rounded.", "why_tests_cant": "The series multiply the angle by up to four before taking sines and add terms of either sign, so rounding errors grow; sampling anomalies and eccentricities does not bound them.", "anchors": [{"file": "src/tatc/utils.py", "symbols": ["mean_anomaly_to_true_anomaly", "true_anomaly_to_mean_anomaly"]}]}
{"id": "C179", "title": "Sun-synchronous inclinations and nodes survive rounding", "statement": "In double precision the inclination of a sun-synchronous orbit is a number from 90 to 180 degrees, within 1e-5 degrees of the exact one, and a higher orbit never has a smaller one. The right ascension of the ascending node is at least 0 and below 360 degrees, and on the circle within 1e-12 degrees of the exact one. Every orbit derived from an accepted sun-synchronous orbit by increases that are not negative is valid and keeps altitude, epoch and inclination.", "quantifier": "Every altitude that the schema accepts, every anomaly in a turn, every right ascension of the sun, every equator crossing time, every increase that is not negative, with every double-precision operation rounded.", "why_tests_cant": "Near the bound on the altitude the arc cosine has a vertical tangent and its argument may round up to one; a test of the altitudes in use never comes near it.", "anchors": [{"file": "src/tatc/schemas/orbit.py", "symbols": ["SunSynchronousOrbit.get_inclination", "SunSynchronousOrbit.get_right_ascension_ascending_node", "SunSynchronousOrbit.get_derived_orbit", "SunSynchronousOrbit"]}]}
{"id": "C180", "title": "Walker constellations survive rounding", "statement": "In double precision, generate_members of every accepted Walker constellation around a valid circular orbit, or around a sun-synchronous orbit at least two nanometres below the highest altitude, returns as many members as requested, in order. Each is a valid orbit with the altitude, inclination and epoch of the lead, within 2e-9 degrees of its exact place in the pattern n/p/F, in anomaly and in right ascension of the ascending node. No two members share an orbit.", "quantifier": "Every accepted pattern, delta or star, with up to a thousand million satellites and up to 2700 planes, every valid lead orbit, every member, with every double-precision operation rounded.", "why_tests_cant": "Increments are multiples of rounded quotients and are reduced to a turn after rounding; a member whose angle rounds to 360 would be refused. Patterns, leads and members are too many to try.", "anchors": [{"file": "src/tatc/schemas/satellite.py", "symbols": ["WalkerConstellation.generate_members", "WalkerConstellation.get_satellites_per_plane", "WalkerConstellation.get_delta_mean_anomaly_within_planes", "WalkerConstellation.get_delta_mean_anomaly_between_planes", "WalkerConstellation.get_delta_raan_between_planes"]}]}
{"id": "C181", "title": "Trains of satellites survive rounding", "statement": "In double precision, generate_members of a train around a valid circular orbit returns as many valid orbits as requested, in order. Each keeps altitude, inclination and epoch of the lead; member i is i intervals behind the lead, within a relative error of 4e-10 and 2e-9 degrees, and its node is where the Earth has turned to in i intervals, within 3e-9 degrees (or that of the lead, when the ground track is not repeated).", "quantifier": "Every train whose members reach over at most 900000 degrees, every valid circular lead up to a million kilometres, every interval of either sign, every member, with every double-precision operation rounded.", "why_tests_cant": "An angle that comes out a little below zero is rounded up to 360.0, which the schema refuses; only some combinations of lead, interval and count hit it, and tests of typical trains do not.", "anchors": [{"file": "src/tatc/schemas/satellite.py", "symbols": ["TrainConstellation.generate_members", "TrainConstellation.get_delta_mean_anomaly", "TrainConstellation.get_delta_raan"]}]}
{"id": "C182", "title": "Derived Keplerian orbits survive rounding", "statement": "In double precision, get_derived_orbit of a valid KeplerianOrbit with an eccentricity up to one returns a valid orbit of the same altitude, inclination, epoch, eccentricity and perigee argument, whose true anomaly is that of the increased mean anomaly within 2e-8 degrees and whose node is the increased one within 2e-9 degrees, up to whole turns.", "quantifier": "Every valid Keplerian orbit with an eccentricity up to one, every increase of mean anomaly and right ascension (up to a million degrees for the distances), with every double-precision operation rounded.", "why_tests_cant": "The conversion of anomalies is a truncated series evaluated in rounded arithmetic; whether it leaves the range the schema accepts is decided in the last place next to 0 and 360 degrees, for which tests would have to hit single doubles.", "anchors": [{"file": "src/tatc/schemas/orbit.py", "symbols": ["KeplerianOrbit.get_derived_orbit", "KeplerianOrbit.get_mean_anomaly"]}]}
{"id": "C183", "title": "Walker constellations around eccentric orbits survive rounding", "statement": "In double precision, generate_members of an accepted Walker constellation around a valid KeplerianOrbit with an eccentricity up to one returns as many valid orbits as requested, in order, each with the altitude, inclination, epoch, eccentricity and perigee argument of the lead. The mean anomaly of each is that of the lead increased by its place in the pattern (its true anomaly is the one of that mean anomaly, within 3e-8 degrees) and its node is turned by its place, within 3e-9 degrees. Up to an eccentricity of 0.3 no two members share an orbit.", "quantifier": "Every accepted pattern of up to a billion satellites (a hundred million for distinctness) in up to 2700 planes, every valid Keplerian lead with an eccentricity up to one, every member, with every double-precision operation rounded.", "why_tests_cant": "Tests try a handful of patterns around circular orbits; that no pattern makes two members coincide or one be refused depends on the truncated series being steep enough everywhere and on rounding next to 0 and 360 degrees.", "anchors": [{"file": "src/tatc/schemas/satellite.py", "symbols": ["WalkerConstellation.generate_members"]}, {"file": "src/tatc/schemas/orbit.py", "symbols": ["KeplerianOrbit.get_derived_orbit"]}]}
{"id": "C184", "title": "Trains on eccentric orbits survive rounding", "statement": "In double precision, generate_members of a train around a valid KeplerianOrbit with an eccentricity up to one returns as many valid orbits as requested, in order, each with the altitude, inclination, epoch, eccentricity and perigee argument of the lead. The true anomaly of member i is the one of the mean anomaly i intervals behind the lead, within a relative error of 3e-9 and 2e-8 degrees, and its node is where the Earth has turned to in i intervals, within 4e-9 degrees (or that of the lead, when the ground track is not repeated).", "quantifier": "Every train whose members reach over at most 900000 degrees, every valid Keplerian lead up to a million kilometres with an eccentricity up to one, every interval of either sign, every member, with every double-precision operation rounded.", "why_tests_cant": "The members are computed by a truncated series in rounded arithmetic from an increment that accumulates the error of the period, which is rounded to a microsecond; tests compare a few members of one train.", "anchors": [{"file": "src/tatc/schemas/satellite.py", "symbols": ["TrainConstellation.generate_members", "TrainConstellation.get_delta_mean_anomaly", "TrainConstellation.get_delta_raan"]}, {"file": "src/tatc/schemas/orbit.py", "symbols": ["KeplerianOrbit.get_derived_orbit"]}]}
{"id": "C185", "title": "Derived element sets survive rounding", "statement": "In double precision, get_derived_orbit of element sets keeps all elements but mean anomaly and node, and these are from 0 to the double precision number next to a full turn and the exact ones within 1e-11 radians up to whole turns. The members of a Walker constellation around element sets are in their places in the pattern within 3e-11 radians.", "quantifier": "All lists of element sets (angles up to 20 radians), all increases up to a million degrees, all accepted patterns of up to a billion satellites in up to 2700 planes, every member, with every double-precision operation rounded.", "why_tests_cant": "The remainder is by the double precision number next to a full turn, so that the error grows with the number of turns, and increases just below zero come out as a full turn; tests try a few increases.", "anchors": [{"file": "src/tatc/schemas/orbit.py", "symbols": ["TwoLineElements.get_derived_orbit"]}, {"file": "src/tatc/schemas/satellite.py", "symbols": ["WalkerConstellation.generate_members"]}]}
{"id": "C186", "title": "Trains around element sets survive rounding", "statement": "In double precision, generate_members of a train around element sets returns as many members as requested, in order, each with as many element sets as the lead. The mean anomaly of member i is i intervals behind at the mean motion of the first set, and its node is where the Earth has turned to in i intervals (or that of the lead, when the ground track is not repeated), within 4e-11 radians up to whole turns; all other elements are kept.", "quantifier": "All non-empty lists of element sets (angles up to 20 radians, at least 0.0001 revolutions a day), all trains whose members reach over at most 900000 degrees, every interval of either sign, every member, with every double-precision operation rounded.", "why_tests_cant": "The error of the increment is multiplied by the number of the member before the remainder is taken; tests compare the first members of one train.", "anchors": [{"file": "src/tatc/schemas/satellite.py", "symbols": ["TrainConstellation.generate_members", "TrainConstellation.get_delta_mean_anomaly", "TrainConstellation.get_delta_raan"]}, {"file": "src/tatc/schemas/orbit.py", "symbols": ["TwoLineElements.get_derived_orbit", "TwoLineElements.get_mean_motion"]}]}
{"id": "C187", "title": "Members of Walker constellations around element sets differ as written", "statement": "generate_members of a Walker constellation of up to a million satellites in up to 2700 planes around element sets never returns two members with the same angles as written: in double precision and with the angles written in degrees to four decimals, any two members differ in the node or in the mean anomaly of each of their element sets.", "quantifier": "All accepted Walker constellations of either kind with up to a million satellites and 2700 planes, all lists of element sets (angles up to 20 radians), every pair of members, every set, and every way of writing the angles within 0.000051 degrees, with every double-precision operation rounded.", "why_tests_cant": "The derived element sets are stored as text with four decimals; whether two members collapse depends on the number of satellites against that resolution, and tests look at small constellations.", "anchors": [{"file": "src/tatc/schemas/satellite.py", "symbols": ["WalkerConstellation.generate_members"]}, {"file": "src/tatc/schemas/orbit.py", "symbols": ["TwoLineElements.get_derived_orbit"]}]}
{"id": "C188", "title": "Members of trains around element sets differ as written", "statement": "generate_members of a train around element sets never returns two members with the same mean anomaly as written, in double precision and with the angles written in degrees to four decimals, when neighbours are at least 0.00011 degrees apart (two milliseconds in a low orbit) and all members are within 359 degrees of the lead.", "quantifier": "All non-empty lists of element sets (angles up to 20 radians, at least 0.0001 revolutions a day), all trains with such intervals of either sign, every pair of members, every set, and every way of writing the angles within 0.000051 degrees, with every double-precision operation rounded.", "why_tests_cant": "Whether two members collapse depends on the interval against the resolution of the text and on the length of the train against a full turn; tests look at trains that are minutes apart.", "anchors": [{"file": "src/tatc/schemas/satellite.py", "symbols": ["TrainConstellation.generate_members", "TrainConstellation.get_delta_mean_anomaly"]}, {"file": "src/tatc/schemas/orbit.py", "symbols": ["TwoLineElements.get_derived_orbit"]}]}

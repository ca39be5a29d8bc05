# Formal model of heat_load_calc: design

## 1. Technique and trusted base

* Lean 4.33.0 + Mathlib. Every property is a theorem about a model of the Python code under `lean/Verif`.
* Trusted: Lean's kernel; the three standard axioms `propext`, `Classical.choice`, `Quot.sound` (all theorems that
  mention real numbers use them through Mathlib); the reading of the Python source that the model's comments record.
  No own axioms, no `sorry`, no `native_decide` / `bv_decide`.
* **Floats are modelled by real numbers.** Rounding error, overflow, NaN and infinities are not modelled (C134 bounds what
  errors of the steps can do to the temperatures of a class of houses, whatever their cause). A Python
  division by a float zero inside numpy gives inf/nan and not an exception; theorems about such expressions carry an
  explicit non-zero hypothesis (or the model returns an error value). Exceptions: theorems about whole runs of a house
  with a room that has no sun-absorbing surface, or a layer with a capacity and no resistance, are about a model in which
  the quotient is zero, while numpy gives nan. C115 proves that these are input errors of exactly that kind, with
  infinities and nan as values (`Model/Ieee.lean`), and that without them the two models agree.
* **numpy arrays**: an `[i,1]` column is a function `I → ℝ` over a finite type of rooms, `[j,1]` a function `J → ℝ` over
  boundaries, `[i,i]`, `[j,i]` … are Mathlib matrices; the number of rooms/boundaries is arbitrary. Broadcasting is
  written out. `np.linalg.inv` is a partial function: it fails (LinAlgError) when the determinant is not a unit.
* **Exceptions** are values: `Except PyErr α`.
* **Outside parameters**: text tables (weather CSV; schedules.json is a parameter everywhere, and is also modelled with its data in `Model/ShippedSchedule.lean` for C126-C128, C71, C76), the JSON parser, pandas, scipy's `fsolve` /
  `newton`, `np.linalg.solve` least squares fit in the response factor code are parameters of the model (arbitrary
  values, or a value known only to be a root). Each such place is named in the comment of the definition.

## 2. Layout

| directory | content |
|---|---|
| `Verif/Model/*.lean` | the program, function by function, each definition citing file and lines |
| `Verif/Spec/*.lean` | small independent specifications, written from the English property |
| `Verif/Lemmas/*.lean` | helper lemmas (linear algebra, lists, …) |
| `Verif/Props/*.lean` | the property theorems `Cxx_…`, and beside each an example that its hypotheses are met |

## 3. Plan per property

| id | what is modelled | how it is proved |
|---|---|---|
| C01–C03 | `get_operation_mode_i_n`, runs as lists of (demand, PMV) inputs | case analysis + induction over runs |
| C04–C06 | PMV and target formulas with the constant coefficients, clothing tables | field arithmetic, monotonicity |
| C07–C12 | `calc_next_temp_and_load`, `get_load_and_temp` over arbitrary finite room types | matrix algebra; capacity and sign only partly true: counterexample + `_partial` |
| C13–C18 | `make_pre_calc_parameters` coefficient block and `run_tick` | matrix algebra from the definitions, no assumption but "the step returned" |
| C19–C20 | moisture part of `run_tick`, `get_dehumid_coeff` | M-matrix minimum principle, induction over runs |
| C21 | all inversions of a step | diagonal dominance (Gershgorin); for radiative systems absence of a kernel: combination of the two rows of a radiant room, or positivity of the response |
| C22 | whole step | uniqueness of solutions; false with inter-room ventilation: counterexample + `_partial` |
| C23 | ventilation part of the step | case analysis |
| C24 | recursions | induction over the history |
| C25–C30 | ground tick, masks, `get_n_step`, `calc` loop, Logger | induction over the loop, two-run simulation |
| C31–C35 | `shape_factor.py`, solar distribution | finite sums; intermediate value theorem for the shape factor root; order counterexample |
| C36–C38 | infiltration, occupants, rac | real inequalities |
| C39–C41 | `response_factor.py` | finite/infinite geometric sums, induction over layers |
| C42–C53 | initializer and weather | lists, real analysis, trigonometry |
| C54–C56 | external | calculus, tables |
| C57–C66 | convert | real arithmetic, recursion on lists |
| C67, C68 | triangular-pulse sampling and least squares fit of `response_factor.py` | integrals of exponentials; normal equations, Vandermonde-type independence |
| C69 | `iso7730.py` with an arbitrary root finder | strict monotonicity, uniqueness of the clothing temperature |
| C70 | `make_weather` | list lengths and entries, column by column |
| C71 | `schedule_loader.py` | unfolding, entries by day and quarter hour |
| C72–C76 | `make_house`, the files as structures, the reader in `pre_calc_parameters.py`, then the whole calculation | inversion of `Except` chains, composition with C21, C27 |
| C77, C78 | `convert_lv4_to_h_hlc.py` | case analysis; both fail, the failure is the theorem |
| C79–C82 | the tables of `log.py` as lists of named columns | injectivity of column names, induction over assignments; concrete runs for the deviations from the documented units |
| C83 | the program on the house, the records and the rows in another order (`Spec/Renumber`) | equivariance of every matrix, of the tick (through its equations) and of the run by induction over steps; coefficients by C34; a concrete pair of orders for the violation |
| C84 | entries of a boundary dictionary as the initializer reads them (`InputJson`) | evaluation of the reader on the exported dictionaries, for arbitrary parts |
| C85 | log of `calc` | step balances summed over rows by induction; strict positivity of humidity for the violation |
| C86 | log of `calc` | minimum principle of one step (the coldest surface and room), invariant over the run; the upper bound by changing all signs |
| C87 | log of `calc` | solution of the recursion of the convolution terms by induction; a sum of twelve geometric sequences with twelve zeros vanishes (violation) |
| C88 | method `convergence` of `ot_target_pmv.py` with an arbitrary root finder | fixed points are the clothing temperatures of the standard, then uniqueness and monotonicity from C69; slope of the loss for the order of clothings |
| C89 | the program on a house and on the same house with parts cut in pieces (`Spec/Pieces`) | both surface systems agree on vectors constant over the pieces of a part, hence the same room matrices; the step commutes with the restriction; induction over steps; for the violation the sums of the shape factors of both houses |
| C90 | the loops of `convert_lv4_to_h_hlc.py` over dictionaries (`Lv4Parts`), as public functions | induction over parts and rooms; the names as a permutation of a range; exchange of sums for the totals |
| C91, C92 | tables of `convert_lv4_to_h_hlc.py` and `a_06_common_items.py` | case analysis over the tables; inequalities for double windows |
| C93, C94, C95 | `run_tick` over a period, on top of the wall equation (C17) and the room balance (C15) | sum the recursions of the response over a closed period: storage telescopes, the geometric series leave the stationary resistance; fixed points: solve the implicit system by the same identities |
| C96 | the chain `make_house` -> `make_pre_calc_parameters` -> `run_tick` for parts given by U values | C72 gives the response, C33/C34 the film, C93 the heat |
| C97 | `calc` with any `n_step_hourly` | indices of the records read by the logged steps; the recursion over an hour (C24) |
| C98 | two runs of `calc`, one for the house `s` times as large | step-by-step simulation (`preScaled`, `tickScaled`); the load system with its columns scaled; induction over the run |
| C99 | two runs of `calc`, one for a building, one for some of its rooms alone (`houseFlat`, `Separate`) | block-triangular matrices (`Cut`) are closed under products and inverses; step-by-step simulation; induction over the run |
| C100 | two runs of `calc` with different numbers of days | the steps of the shorter run are a prefix of those of the longer one (`Run.split`, `coreCalc_of_runs`) |
| C101 | a run of `calc` for a house with a symmetry (`HouseAlike`, `DataAlike`) | the reordered run of C83 is the run itself |
| C102 | `notebook/initializer/shgc_window/multiple_reflection.py` (`Model/Panes.lean`) | joining stacks is associative (`star_assoc`); the light between the panes solves the balance, which has one solution; monotone limit of passages |
| C103 | `glass_thermal_balance.py` (`Model/Glazing.lean`), root finder as parameter | the network is a chain (`HeatBalance`): heat through it by induction, exchange of sums for `r_qin`; existence by the theorem of Poincaré and Miranda, proved in `Lemmas/Miranda.lean` by counting paths on a grid modulo two |
| C104 | `window.py` `calc` | C102 and C103 |
| C105 | `Glass.get_heat_transmittance` | sum of the resistances; two glazings compared term by term |
| C106 | emissivities, films, gaps | pieces of the table; films compared for pairs of glazings; algebra |
| C107 | pairs of calculations without demand | without demand every operative temperature is the natural one; relation between the two runs kept by every step |
| C108 | triples of calculations without demand | the matrices of a step do not depend on the input data; weighted means are kept by the ground, the hand-over and every step |
| C109 | pairs of calculations without demand | the difference of two steps satisfies the equations of one step with the differences of the data; minimum principle (partial: no storage, tight, no air exchange between rooms; false with storage, with leakage and with air exchange: C109_violated, C109_leak_violated, C109_air_violated) |
| C110 | pairs of histories of one house | without storage: maximum principle with the loss to ventilation gives an explicit factor per step; with storage: an energy of the difference (heat of air and furniture plus what each outer part can still give back, a supremum over histories) falls by a fixed share per step when the parts are passive behind their film; passivity from the real part of the answer at every frequency (Parseval), from the signs of the response factors or from the fitted step response; run-ups of different lengths share their last days (partial: tight houses, light partitions, no demand; proved false with leakage, with much air between rooms and with demand) |
| C111 | histories under data that repeat | the history without its last day and the history without its first day are two histories under the same data, so C110 bounds their difference; the rows of one time of day are a Cauchy sequence whose limit all starts share (partial: the houses of C110) |
| C112 | moisture balance of rooms and furniture along histories | at the room with the lowest humidity the balance points upwards; the moisture of a room with its furniture only grows where no air leaves (partial: upper bound without air flow between rooms, violated with it) |
| C113 | pairs of histories of one house, humidities | at the room with the largest difference the balance loses the share of the outdoor air; the temperatures (C110) enter through the moisture of the people as a disturbance that fades; the moisture of a room without air exchange is conserved (partial: the houses of C110 with more outdoor air than air of other rooms) |
| C114 | the readers of words | each reader accepts exactly the words of a list in the specification, with the value there, and raises for any other string (partial: the misspelt word for the outside blind and the table that gives truth values for directions are proved as violations) |
| C115 | quotients of numpy | numbers, infinities and nan as a type of values with numpy's arithmetic; the chain from the transmitted radiation to the surface temperatures, and from layers to the response factor, written with them; exact agreement with the real-number model under the condition, nan everywhere without it (partial: overflow and the rest of the code are not written with these values) |
| C116 | pairs of calculations with equipment that differ in the run-up | whole calculations of every length on a one-room house whose data leave it between the threshold and the target of heating; two invariants along the run (kept at the target; left alone) proved for all lengths of run-up and calculation; what agrees is proved from the target equations (partial: false because the mode latches) |
| C117 | pairs of calculations of a house and a better insulated one | the better insulated house is the same model with larger `phiA0`; the differences of the two satisfy the equations of a house with non-negative sources, and the heat by which air and furniture lag is a potential that bounds the sum of the loads, by induction over the steps (partial: one room without storage in its parts; false where windows are opened) |
| C118 | pairs of calculations of a house in two sets of records | the case of C117 in which only the records differ; the counterexample adds a heat gain in one quarter of an hour (partial: one room without storage in its parts; false where windows are opened) |
| C119 | `make_house` and `calc` one after the other (`Model/Whole.lean`) | the matrix of a layer is the product of the matrices of its pieces, so the fit sees the same wall; equal files up to what the calculation reads, hence the same run, by a relation between the two programs (`SameRun`); pieces below 0.001 J/(m2 K) are taken to be massless (partial: false below the threshold) |
| C120 | the same, and the readers of the equipment | only the radiant part of heating equipment is read; for the violation the first step of a plain house: without load no temperature exceeds 15 degC (averages), but the operative temperature is at the target (partial: false) |
| C121 | the same | the relation of C119 also allows these entries to differ |
| C122 | `runAll`: the three programs one after the other | C70, C44 for the lines; C74 and C71 for the records; C79 for the table; the gain of a part in a step depends on one line |
| C123 | numbers as they are written (`JNum`), the type of a numpy array of them, `json.dump` (`Model/Files.lean`) | the array is one of floats if one number is; `json.dump` refuses np.int64 (partial: violated if all volumes are whole numbers) |
| C124 | the directory as a map from file names to contents, `make_house` as a list of effects on it that may be cut off anywhere, reading of the files (`Model/Files.lean`); tables of other widths and numpy's broadcasting (`Model/AnyWidth.lean`) | what is written is read back; a cut after k files leaves k new files and the old rest (partial: violated between two files) |
| C125 | the remarks column of the detailed table, a function of the mode and the equipment (`Model/Record.lean`) | the cells of a completed run and uniqueness of cells; the coefficient of the row against the formula for the reported speed (partial: the speed is not used) |
| C126 | lookup of the schedules by name in the schedule file of the project (`Model/ShippedSchedule.lean`, generated by `tools/gen_schedule.py`) | `get_schedules` on the file; acceptance of `make_house`; relabelled examples (partial: the name decides, not the kind) |
| C127 | the same file, interpolation between households | sign and demand facts over all entries of the file by kernel evaluation, lifted through the interpolation for all floor areas |
| C128 | the same, summed over the rooms | as C127; injectivity of names to tables (partial: names may repeat) |
| C129 | whole calculations of two houses that differ in their air conditioners | induction over the steps: equal in all but moisture up to the first cooled row; a concrete house cooled with twice its capacity (partial: false) |
| C130 | compiled schedules of two houses, schedule file with its data | data checked by the kernel over all entries; monotone interpolation; sums over days (partial: at single times false) |
| C131 | the same, sign of the demand | times of fractional households as unions; proper inclusion on every kind of day (partial: false) |
| C132 | two inputs that differ in overhangs and glass through `make_house` and the calculation | monotone in shading and transmittance part by part, sums over parts, then C109 (partial: an added overhang lets in more sun) |
| C133 | tables with their own numbers of rows, the calculation on them, directories with such tables | refinement to the calculation with one length; completed folds give every index; cut tables re-indexed to shifted data (partial: run-up from other days) |
| C134 | the step, as before; calculations in which every step hands on and writes inexact numbers | the energy of C110 is a square form, so it obeys a weighted triangle inequality; invariant bound `G e²` of the energy of the difference (partial: tight, free-running, partitions without storage) |
| C135 | two calculations from two sets of tables | the difference is a step with sources; a particular solution of the surface system reduces it to the difference without sources of C110, so the energy obeys `E⁺ ≤ ρE + c e²`; the ground run-up has an energy of its own (partial: tight, free-running, partitions without storage). For weather errors with constant one: each calculation is blended half and half with a house at rest, at 0 and at `e` degC (`run_blend`), and the two blends are compared by C138's order (`run_warming`) |
| C136 | two requirements distributed over the same parts (`remainingF`, `specifyParts`, `convertIndices`) | induction on the parts not yet at their maximum: the level reached is monotone in the required loss; then the opaque gains are monotone in the U values and the clipped transmittance in what is left for the windows (partial: detached, regions 1–7, 20–4000 m2) |
| C137 | two calculations of a house with different fans and local ventilation (`coreCalc`, `program`) | the larger intake at a room above outdoors acts like a heat sink on the same house, so the comparison principle of the averages applies row by row (partial: tight, storageless, no demand) |
| C138 | two calculations of a house with different demand (`coreCalc`); the loads and the air flows of the written rows are compared | the difference of the loads is a heat source of the difference of the states, different amounts of outdoor air are counted as heat; comparison principle of the averages row by row; C12 for the signs (partial: storageless; false where windows open) |
| C139 | two calculations of a house with different moisture (`coreCalc`, `program`) | the other columns agree (C107); the system of the humidities has a Z-matrix with positive row sums, the same in both, and its right-hand side grows with the moisture; the coil is monotone in what enters; induction over the steps |
| C140 | processes that write files in pieces, each at its own position, in any interleaving (`Model/Processes.lean`), on top of the effects of `make_house` | invariant: every byte of the text is in its place or will be written by a process underway; explicit interleavings for the violations (partial: only runs for the same input, when all are over) |

## 4. What is modelled and what is not

Modelled, function by function (the comment of each definition cites the lines):

| code | model |
|---|---|
| `core/operation_mode.py`, `ot_target_pmv.py`, `ot_target.py` | `OperationMode`, `OtTargetPmv`, `Convergence` |
| `core/next_condition.py`, `heat_exchanger.py`, `sequence.py`, `matrix_method.py` | `NextCondition`, `HeatExchanger`, `Sequence` |
| `core/pre_calc_parameters.py` (coefficients 448-674, reading 215-447) | `PreCalc`, `Reader` |
| `core/sequence_ground.py`, `conditions.py`, `core.py`, `period.py`, `log.py` | `Ground`, `Core`, `Period`, `Log`, `Record` |
| `core/shape_factor.py`, `infiltration.py`, `occupants.py` | `ShapeFactor`, `Infiltration`, `Occupants` |
| `external/*.py` | `Psychrometrics`, `Rac`, `Iso7730`, `Tables` |
| `weather/*.py` | `Weather` |
| `initializer/schedules.json` | `ShippedSchedule` (generated) |
| `initializer/*.py` | `Schedule`, `Solar`, `Boundary`, `InputJson`, `Summarize`, `Initializer`, `ResponseFactor` |
| `example/example1.py` (the chain of the three programs) | `Whole` |
| writing and reading of the intermediate files (`initializer.py` 145-189, `pre_calc_parameters.py` 215-410) | `Files`, `Sheets`, `AnyWidth`; at the level of the calls to the file system `Processes` |
| `notebook/initializer/shgc_window/*.py` | `Panes`, `Glazing` |
| `convert/*.py` | `Round`, `Sunshade`, `Ees`, `EesDict`, `UPsi`, `ModelHouse`, `Indices`, `ConvLevels`, `ConvRooms`, `Lv4Parts` |

Not modelled: the notebooks in `notebook/` (its modules on windows are modelled), `example/` (the sequence of the three programs in `example/example1.py` is `runAll`), `test/`; plotting and printing; the text of csv and json files (the values written are
modelled, their decimal notation is not); the `argparse` front end; the values inside the weather files (any values are
allowed); `scipy.optimize.fsolve`, `newton` and `root` (any function with the stated contract); `make_layer` of
`convert_lv4_to_h_hlc.py` (never called); what follows line 123 of `building_part_summarize.py` for a non-empty list (not reachable, C49_integrate_violated).

Conventions: literals such as `5733.0` are written as integers; absent dictionary keys are `Option`s or entries missing in a `PyVal`;
where Python reads all rooms key by key the model reads room by room, so among several errors another may be reported first (this is
said in the comment of the definition).

## 5. Axioms

Every theorem named in `MANIFEST.json` depends on a subset of `propext`, `Classical.choice`, `Quot.sound`; `vcheck` prints this for the
committed state.

## 6. Seeded bugs

`tools/mutate.py` applies an edit to the model in a scratch copy, rebuilds and records which theorems fail; the record is
`seeded/LOG.jsonl`. A mutant that survives leads either to a stronger theorem or to a note why the English claim is still true.

## 7. Findings (places where the code does not have the property)

Each is a Lean theorem (named in brackets) with a concrete witness, or a statement about all houses, next to a positive `_partial`
theorem that says what does hold.

Calculation

* Inter-room ventilation enters the heat balance of the room with the opposite sign and without the displaced air, so a house at rest
  with air flowing between rooms does not stay at rest [C14_violated, C22_violated]; the moisture balance forgets the displaced vapour
  [C18_violated].
* The coil of a cooled room that receives air from another cooled room can humidify [C20_violated].
* With two radiant systems the capacity of one can be exceeded, and a heated room of a multi-room house can get a negative load
  [C11_capacity_violated, C12_sign_violated].
* Two rooms heated by panels on both sides of a thin partition can make the load matrix singular: the calculation stops
  [C21_violated]. A single floor-heated room next to an air-conditioned one behind light partitions is enough
  [C21_one_radiant_violated].
* For an internal part the rear side is evaluated with the part's own coefficients instead of the partner's
  [C17_equation_as_coded, C17_residual, C17_violated].
* The ground run-up starts from the mean outdoor temperature of the whole year: results depend on later weather [C30_violated].
* Radiative coefficients are assigned in boundary order of the rooms and therefore to the wrong boundaries unless the boundaries are
  listed room by room [C34_violated].
* Parts in contact with the ground see 0 degC in the main calculation [C73_violated].
* More than 365 run-up days end with an IndexError [C28].
* A person's sensible heat becomes negative above 39.75 degC, the latent heat then exceeds the total (C37 holds for the sum).
* In the result tables the total heat of a part is in W/m2 and the latent heat of people in kg/s where W is documented [C80_violated];
  hourly loads are sums of four powers [C81_loads_violated]; fewer than four steps per hour leave hours empty [C81_steps_violated]; the
  number of a part in a column name is not its number in the input [C82_violated].
* A main period of zero days ends with a ValueError after all steps of the run-up were computed [C79_no_day_violated].
* When the parts of two rooms alternate in the list, listing them room by room changes the computed heat fluxes, since
  the radiative coefficients are assigned in the order of the rooms (C34) [C83_violated].
* Rooms start at 15 degC but the parts at 0 degC, so without run-up the first row leaves 15 degC although nothing happens
  [C86_cold_start_violated].
* The memory of parts exposed to outdoors takes every past outdoor temperature one step too early [C87_violated].
* Entering a wall as two pieces changes the radiative coefficients of its room, and with them the heat fluxes
  [C89_coefficients_violated, C89_violated].
* Converting vapour pressure to humidity ratio and back is not the identity (different constants) [C54].

Initializer and weather

* Response factor objects change their state when called; factors given in the input keep their length [C41_repeat_violated,
  C41_width_violated].
* A sun below the horizon lights vertical walls facing it [C45_violated].
* A window declared without shading gets no direct sun [C47_violated].
* The single-pane curve exceeds 1 and is 0.999 at normal incidence [C48_violated].
* Merging of equal parts is not transitive; `integrate` is never called and would fail [C49_violated].
* Rear-side weights are rounded to one decimal and do not sum to one [C50_violated].
* Negative upstream room numbers are accepted [C51_violated].
* A room without floor gets undefined shares or only 0.55 in total [C53_violated].
* Cooking heat and cooking vapour are exchanged [C71_violated].
* A house with a room without a convective cooler is accepted and cannot be read [C72_violated].

Conversion

* In region 8 the standard U values of boundary walls and boundary floors exceed the maxima used in the conversion from indices [C58_region8].
* No house is converted from its indices in region 8, and no attached house anywhere [C59_region8_violated, C59_attached_violated].
* A detailed sunshade on an opaque part makes an exported part unreadable [C63_violated, C60_violated].
* A U value above that of the bare construction is silently lowered [C62_violated].
* Exported air paths name no existing room, and the level-4 export always fails [C77_violated, C78_violated].
* Exported parts lack entries the initializer requires [C84_violated]; glass other than single has a name the initializer does not know
  [C84_glass_violated]; unspecified and detailed sunshades are exported under names it rejects [C84_window_partial, last clause].
* Attaching the level-4 parts to rooms loses parts whose room is missing and doubles parts with two rooms of the type; the keys expected
  (`space`, `Surface`) are not those the earlier stages write (`space_type`, `boundaries`) [C90_lost_violated, C90_doubled_violated,
  C90_keys_violated].
* `get_eta`: entered coefficients of double windows can exceed 1 together; window kinds other than single and double end in an
  `UnboundLocalError` [C91_entered_violated, C91_kind_violated].
* Surface resistances behind a part differ between `a_06_common_items.get_r_surf` and `ees_house`; `open_space` has no level-4 name
  [C92_outside_violated, C92_open_space_violated].
* The two sides of a partition are entered separately. If their layers do not have the same total resistance, heat is created or lost in the
  partition: in the example 80 W leave one room and 40 W arrive in the next [C94_partition_iff, C94_violated].
* The U value of a part is taken apart with the inner surface resistance entered and put together again with a film computed from the shape
  of the room, so parts are calculated with other U values than entered [C96_iff, C96_areas_violated, C96_violated].
* `n_step_hourly` other than 4 is accepted, but data and response factors stay those of 15 minutes [C97_records_violated, C97_more_violated,
  C97_memory_iff].
* The air conditioner dehumidifies above an absolute cooling load of 0.001 W; apart from that the calculation is to scale [C98_program_partial,
  C98_violated, C98_program_violated].
* Infiltration of every room follows the mean temperature of all rooms, so flats of one building influence each other without any
  connection [C99_violated]; without leakage they do not [C99_flat_partial, C99_neighbours_partial].
* Two rooms entered alike get different results if their parts are listed alternately, since the radiative coefficients go to the
  wrong parts [C101_violated]; listed room by room they get the same [C101_program_partial].
* Glazing with the method JIS_A2103: the film indoors is calculated from the emissivity of the surface outdoors (`get_h_i`, line 780), so a coating
  towards the room has no effect on it [C106_inner_violated]. The success of the root finder is not checked. The docstring of `r` gives the order of the
  resistances the wrong way round (they go from outdoors to indoors) [C105_u, C103_flow].
* A room supplied with air by other rooms only becomes ever more humid, at 60 m3/h and 72 m3 by the humidity of the supply air every 18 hours
  [C112_unbounded_violated]; any air flow from another room raises the humidity above that of outdoors without a source [C112_inflow_violated].
* Sun on a light wall makes its inner surface colder in the next quarter hour, since the response of the sheet is driven by the outdoor
  temperature of the same step and then undershoots [C109_violated].
* A lamp in one room makes another room colder, if the house leaks (infiltration of all rooms follows their mean temperature) or if air goes from the
  one to the other [C109_leak_violated, C109_air_violated].
* Two rooms that exchange more air than they get from outdoors are unstable: 1 W makes them differ by more than 10^26 degrees after a day, doubling
  every quarter hour [C86_air_violated, C110_air_violated]. With leakage and rooms around the outdoor temperature, a small change of the
  start is magnified without bound by one step, since the slope of the root is infinite there [C110_leak_violated].
* One more day of run-up can decide whether a house is heated all year: the mode latches (heating starts below PMV -0.7, heats to -0.5 and only ends
  above +0.7). `C116_violated` gives, for every run-up of 1 to 365 days, one house and one year of data for which the calculation with a run-up of d - 1
  days heats in every step and the one with d days in none.
* Insulation can raise the heating (C117). `get_operation_mode` opens the windows whenever the PMV in clothing of the middle kind reaches 0, whatever
  the outdoor temperature. `C117_violated`: the same room with the same records, once behind a single pane and once behind an insulated one. Heat
  released in the room makes the insulated one comfortable, its windows are opened at -20 degC, and a quarter of an hour later it is heated; the other
  is never heated.
* Heat gains can raise the heating (C118), for the same reason: with a lamp the house is comfortable, its windows are opened in the frost, and in the
  next step it is heated; without the lamp it is never heated (`C118_violated`).
* A house without heating equipment is heated (C120): `make_pre_calc_parameters` reads only the radiant part of the heating equipment. "not_installed" and
  an air conditioner of any size mean the same, a convective system of unlimited power, in the tables as in the digest (`C120_ignored`, `C120_violated`).
* A wall entered in very thin pieces (below 0.001 J/(m2 K) each) stores no heat (C119), and the inner surface resistance of parts entered by their
  layers is required but not used (C121, C96).
* One room without a sun-absorbing surface (`is_solar_absorbed_inside` false for all its parts) makes all surface temperatures of the whole house
  nan, by 0/0 in `pre_calc_parameters.py` and 0·nan in the matrix products; a layer with `thermal_resistance` 0 does it to its wall (C115).
* An input in which the volumes of all rooms are whole numbers without a decimal point is refused with a TypeError by `json.dump` (`initializer.py` 154:
  `np.int64` is not serializable), after the old `mid_data_house.json` has been emptied (C123).
* `make_house` writes its eight files one after the other in place. Interrupted between two of them it leaves a mixture of two inputs, which `calc`
  reads without complaint (C124). A house with one part leaves a table of one column, which numpy spreads over all parts of the next house if its run is
  stopped before the last file [C124_last_violated].
* The remarks report an air speed of 0.2 m/s when an air conditioner heats or cools, but the convective coefficient of people is 4 W/(m2 K) in every row; the formula for that speed gives more than 5.4 (C125).
* The schedules of a room are looked up by the room's name, not its type (`initializer.py` 94, 135). Any name but `main_occupant_room`,
  `other_occupant_room`, `non_occupant_room` is refused with a KeyError; an underfloor space must have one of these names and so has people in it (C126).
  Two rooms of one name count the same people twice (C128).
* With the shipped schedules, the exchange of cooking heat and vapour (C71) loses more than 70 % of the cooking heat and multiplies the vapour by at least 3.4.
* Merging of parts (`integrate`) cannot work on any list of parts: it reads an attribute `n_root` that parts do not have
  [C49_integrate_violated].
* The maximum capacity of an air conditioner does not limit its load: it only enters the air flow over the coil, which is extrapolated beyond
  the maximum [C129_violated, C129_program_violated].
* More people do not use the air conditioner longer: in the schedule file the times of three people are the union of those of two and of four, and the
  interpolation does the same for every floor area between 60 and 120 m2; so every room of a house of 120 m2 is conditioned for a shorter time, on every
  day, than in any house between 60 and 120 m2 [C131_violated]. On some holidays the large house is empty while smaller ones are not [C130_violated].
* An overhang lets in more sun than none, because a window without overhang gets no direct sun; a deeper overhang lets in less than a shallow one
  [C132_violated, C132_sun].
* Nothing compares the lengths of the tables. In the run-up the number of the step is negative: from a table of which the last rows are missing, the
  run-up takes earlier days than from the others, and the calculation completes [C133_cut, C133_violated].
* In a house of two small rooms that exchange air, an error of rounding more than doubles in every step: by 10^28 in a day [C134_air_violated]. An error in
  the gains grows in the same way [C135_air_violated].
* With demand the results are not continuous in the data: an error of any size, at the start or in the gains, decides at the comfort threshold whether
  the windows are opened, and the room is 7 K colder a step later [C134_demand_violated, C135_demand_violated].
* A house with demand for heating can be colder than the same house with the equipment switched off: windows open in comfortable rooms with demand,
  also in the frost [C138_violated].
* Two runs of `make_house` at the same time in one directory can leave the house of the one with the schedules of the other, without a message
  [C140_mixed_violated].
* With demand a house has a memory without end: in constant mild weather a room stays cool for ever if its windows are closed and warm for ever if they are
  open, because the comfort that decides on the windows is itself decided by them [C110_demand_violated].
* When the old house had one part and as many rooms as the new one, every directory of an interrupted run is calculated, with the outdoor temperature of the
  one old part behind all parts of the new house [C124_between_violated, C124_between_example].
* With leakage, airing one room makes the room next to it warmer, although it is colder outdoors: every room leaks by the mean temperature of the house, not
  by its own [C137_leak_violated].
* Houses that store heat can be compared with each other step by step although a single step is not monotone in the state of a wall: the answer of a
  part to a pulse of heat, with the film of its surface, is log-convex for layers that are not too light for the time step, and then (Kaluza's
  lemma, `Lemmas/Kaluza.lean`, proved with power series) what the part still owes of its past is a nonnegative combination of the past
  temperatures in front of its film. So heat released indoors, or by the equipment, never makes such a house colder (`C109_storing_rows_partial`,
  `C138_storing_rows_partial`), and airing it while it is warmer than outdoors never makes it warmer (`C137_storing_rows_partial`). This holds on the ground as well, as long as both calculations have the same outdoor air, since the run-up of the ground knows nothing else of the data. Warmer surroundings of
  such parts never make the house colder if each of them lets warmth through (`LetsWarmthThrough`): in answer to a pulse of warmth behind it, it gives the
  room a heat flow that is never negative (`C109_behind_rows_partial`). Compared with a house that has been at one temperature for ever (whose parts hold a past
  without beginning, a limit of finite ones) this keeps every temperature of such a house between the outdoor temperatures and the two
  temperatures of the start (`C86_storing_partial`). The light wall of `C109_violated` is outside that condition.

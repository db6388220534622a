# Formal model of openscm-twolayermodel (Lean 4)

## Approach

The package is a small numeric state machine with an API of setters, `set_drivers`, `reset`, `step`, `run`,
`run_scenarios` and two parameter conversions. The model mirrors it function by function.

| Lean module | models |
|---|---|
| `Model/Num.lean` | the float operations the code uses (`Arith`, a class without laws), exact instance `XR` (reals + NaN), the object-state/exception monad `Py` |
| `Model/Pint.lean` | the part of pint the code relies on: unit containers, `.to`, `+ - * / **0.5`, comparison of quantities |
| `Model/Base.lean` | `base.py`: unit check, `delta_t`, `erf`, `set_drivers`, Geoffroy helper parameters; `constants.py`; `errors.py` |
| `Model/TwoLayer.lean` | `two_layer_model.py` |
| `Model/ImpulseResponse.lean` | `impulse_response_model.py` |
| `Model/Time.lean` | `_select_timestep` (`base.py`) and the Gregorian calendar under it |
| `Model/Scenarios.lean` | `run_scenarios`, `_create_ts` (`base.py`) on tables of series |
| `Model/Utils.lean` | `utils.py` |
| `Model/Version.lean` | `_version.py` |
| `Model/Versioneer.lean`, `Model/Release.lean`, `Model/Config.lean`, `Model/Root.lean`, `Model/Setup.lean` | `versioneer.py`; `setup.py`, `scripts/check_requirements_in_readme.py` |
| `Model/Alias.lean` | what a caller's in-place write to the array it passed as drivers, or an in-place unit conversion (`ito`) of the Quantity returned by `erf`, does to an object |
| `Model/Shared.lean` | Quantities as mutable cells of a heap, shared between objects, callers and default arguments; programs that construct objects, call them and convert cells in place |
| `Model/Interrupt.lean`, `Model/Copies.lean` | the methods assignment by assignment (interrupts, threads); the output arrays as cells of a heap (`copy.copy`, `copy.deepcopy`) |
| `Spec/*.lean` | specifications: API histories, difference equations, ODEs, Geoffroy et al. formulas, calendar, tables, version strings, rounding. They use the model's types (objects, calls, quantities) but none of its algorithms, except that `Spec/Api` and `Spec/Coupled` compose calls |
| `Proofs/*.lean` | helper lemmas |
| `Props/*.lean` | the property theorems, named `Cnn_...`, each followed by a concrete case that meets its hypotheses |
| `Exec.lean` | the model at `Float` (a test of the model against recorded outputs, not a proof) |

Exceptions are values: every method returns the new object *and* `Except Err _`, so the object a failed call leaves
behind is part of the model, and histories may go on after exceptions.

Four arithmetics:

* **Any arithmetic.** `Arith α` lists operations and *no laws*. Theorems about bookkeeping (C01–C14, C46–C56, C68, C69,
  C76, C77, …) are proved for every `α`, so they hold for IEEE-754 doubles with rounding, overflow and NaN.
* **Exact arithmetic** (`XR`): physics, unit invariance, parameter conversion. The formulas of the code without rounding.
* **Rounded arithmetic** (`Spec/Rounding`): every operation may have a relative error up to `u`; C67 bounds what that
  does to a run, uniformly in its length. C88 adds the time-step error; C102 and C103 bound the errors of the two parameter conversions. Nothing else is claimed about the accuracy of rounded results.
* **IEEE-754 binary64** (`F64`, `Spec/Ieee`): rounding, overflow, infinities, NaN and signed zeros (C113–C115).

## Plan per property

| Property | What is modelled | Proof |
|---|---|---|
| C01-C08 | step/reset/run of both classes on the object state, any arithmetic | induction over steps; invariant "cells ≤ idx are the recurrence, the others NaN" |
| C09, C10 | API histories: lists of calls, failing ones included | coherence invariant by induction over the history; a run is determined by the public parameters |
| C11, C12, C14, C69, C76 | setters, constructors, set_drivers with bare and Quantity arguments | case analysis; C69 also by induction over histories |
| C13 | same | **false of the code** (assigning d1/d2 later is not checked): counterexample; partial theorem for histories without such assignments |
| C15-C17 | exact run ⇔ difference equations (Spec/Equations) | refinement to the recurrence, telescoping sums |
| C18-C20, C24, C25, C70, C72-C75 | pairs of runs | uniqueness of solutions of the difference equations; comparison principle by induction |
| C21-C23, C26, C27, C71 | long-time behaviour | eigen-decomposition into the two boxes; monotone convergence; discrete convolution with a null sequence |
| C28-C31 | exponential update vs the box ODE | ODE solution + uniqueness (Grönwall); exp addition law; induction |
| C32-C34 | outputs, heat uptake formula | direct / invariant |
| C35-C39 | quantities in arbitrary compatible units, value semantics `mag * scale` | field algebra with square roots |
| C40-C42 | both models | diagonalisation; `|e^{-x}-(1-x)| ≤ x²/2`; uniform-in-time bound |
| C43-C46 | unit containers and conversions in a lawful registry | value semantics; C44/C45 **false of the code**: counterexamples, exact characterisation, partial theorems |
| C47-C50, C53-C56, C60 | run_scenarios on tables with metadata | induction over rows; history independence; C53 second half **false of the code** for interior gaps |
| C51, C52 | time axes as integer seconds, Gregorian calendar | integer arithmetic; C52 **false of the code** for a two-point December–January axis |
| C57 | utils + equilibrium theorem | algebra |
| C58, C59, C61-C65 | `_version.py`: strings as lists of characters, outcome of each git command as data | induction over strings; case analysis |
| C78-C81 | `versioneer.py`: the content of `_version.py` as text, JSON writer and reader, Python literal | reader inverts writer by induction over strings; C80 **false of the code** for texts JSON escapes: counterexample, partial theorem |
| C82, C83 | README as a list of lines | induction over lines |
| C84 | the same run relation for two parameter sets | induction over the steps of the reference recurrences |
| C85-C87 | reference recurrences | mode closed forms for the ramp; cumulated sums obey the recurrence with cumulated forcing, then the limit of C21; heat from C17 |
| C88 | `FR r` runs against the differential equations | triangle inequality over C66 and C67 |
| C89 | two-layer runs with `a ≠ 0` | invariant interval; monotone convergence to the smaller root |
| C90 | pairs of two-layer models | induction; lower layer stays below the upper one under rising forcing |
| C91 | two-layer runs against the non-linear differential equations (`Spec/Accuracy`) | first-exit argument for the solution, mean value theorem for the truncation error, contraction |
| C92 | `versioneer.py` installer on file texts | lines of an appended text; case analysis; counterexample without final newline |
| C93 | same | a text without newlines occurs in a file iff it occurs in one of its lines, by induction |
| C94 | `Size`, `TLM.Sizes`, `IRM.Sizes` (Spec/Physical): magnitude times product of sizes of named units, no mention of model units | from C15 and the impulse response equations, by rescaling (Proofs/Scaling); mixed-unit example |
| C95 | a record of assignments kept without the object (Spec/Ledger: `Stored`, `Becomes`, `Ledger`) | induction over the history from C11 and the specification of run_scenarios; the record is shown to be unique |
| C96 | Both model classes through `Produces` (set driver, reset, run, read outputs) in exact arithmetic | `C96_two_layer`, `C96_two_layer_pulse`, `C96_impulse_response` (Props/Convolution.lean): linearity, causality and shift invariance of the solutions, induction on the driver length |
| C97 | `run_scenarios` of both classes, the conversion and the constructor in exact arithmetic | `C97_temperature`, `C97_heat_uptake`, `C97_succeeds` (Props/Equivalence.lean): C60 for both classes, uniqueness of the solutions, and the step-by-step comparison of C41/C42 |
| C98 | `run_scenarios` for both classes, any arithmetic; scmdata and pandas as in the trusted base | `C98_two_layer`, `C98_impulse_response`, `C98_same_axis` (Props/Frame.lean): the loop over series produces one block per series; metadata keys are preserved by the annotations |
| C99 | `Model/Shared.lean`: a heap of Quantities, objects of both classes holding references, the events of a program; `Model/Alias.lean` for arrays | heap invariant by induction over the program (each object read through its references is `Reachable`: relabelling equals a setter call because cached magnitudes are unit-independent); methods of the two-layer model commute with replacing parameters by equal-valued ones; counterexample program over the reference registry |
| C100 | `Core.itoErf` in `Model/Alias.lean` | the run depends on drivers only through the cached magnitudes; in the W/m^2 case these are the same array |
| C101 | setters, get_two_layer_parameters, run of the impulse response model, for timescales in either order | the evaluation of a run (C33, C44) for distinct timescales in either order; the mode parameters of the equivalent two-layer model are symmetric in the boxes; difference in closed form from the inverse Geoffroy relations |
| C102 | the conversion run in FR r, arithmetic rounded by an arbitrary accurate rounding | Ap calculus (relative error with a bound B) through each of the operations |
| C103 | both functions run in FR r, with square root rounded too | Ap calculus in two units of error: u up to the mode parameters, 180 u kappa^2 for the coefficients |
| C104 | `TLM` with D as the variable; one-layer equation `OneLayerEq` in Spec/Equations | induction over steps of Tendsto in D; explicit bound by induction; geometric series for constant forcing (Props/Deep) |
| C105 | `TLM.getImpulseResponseParameters`, results read in SI | timescales as the roots of a quadratic; sign of one object's quadratic at the other's roots (Proofs/Deep, Props/Deep) |
| C106 | `Sc α` (Spec/Scalars): scalars tagged with their kind, a result being numpy if an operand is; `pyDiv` and `Qty.sqrt` raise between Python numbers only | erasing the tag commutes with every operation of the model (relational reasoning through the exception and state monads, Proofs/Scalars); invariant that results of numpy operands are numpy |
| C107 | `Ens ι α` (Spec/Ensemble): an entry shared by all members or a row, operations broadcast; the classes over this arithmetic | projection to a member commutes with every operation that does not compare rows; relational reasoning through the monads with an invariant (drivers complete, impulse response parameters scalar), then induction over histories (Proofs/Ensemble) |
| C108 | the loops over `FR r` (every operation rounded) against `TLEq` with any `a`; `memoryAt` in Spec/RoundingState | error recurrence: the difference of the two runs feels the feedback `l - a (T + T')`, at least ν as long as the difference is small; induction with the two error bounds as a fixed point (Proofs/RoundingState) |
| C109 | the whole of `run_scenarios` over `FR r`; `ReturnedNear`, `Drivers` (Spec/ScenarioRounding) | C47 (which holds for every arithmetic) identifies the runs, C67 bounds their errors; for the default models the step of the axis is computed in doubles and the ranges are checked (Props/ScenarioRounding) |
| C110 | both loops over `FR r`; `Rounding.Odd`, `negated`, `delayed` (Spec/RoundingSym) | every operation of a step commutes with negation, induction over the cells; at rest without forcing a step yields zeros, then induction from the shifted start (Proofs/RoundingSym, Props/RoundingSym) |
| C111 | the boxes over `FR r`; `Rounding.Ordered` (Spec/RoundingSym) | each operation of the box update is monotone in the previous temperature and the forcing, induction over the cells; for `double` monotonicity follows from its being a nearest binary64 number (Proofs/RoundingSym, Props/RoundingSym) |
| C112 | `FR r`; `getTwoLayerParameters`, `getImpulseResponseParameters`, `init` as before; `Spec/RoundTrip` | forward error analysis of each conversion for inputs that are themselves only known up to a relative error (`TLM.fgetIR_err`, `IRM.fconv_err'`), composed with the exact round trips of C38/C39 |
| C113 | `F64` (Spec/Ieee): binary64 with infinities, one NaN, signed zeros; the model's own loops instantiated at it | finiteness is absorbed backwards by +, -, *, and by / in its numerator (Proofs/Ieee); induction over the cells (Props/Ieee) |
| C114 | `F64`, `Phys64`, `Produces64` (Spec/Ieee); ranges of Spec/Rounding at 2^-1022 and 2^1023 | each operation of a step on numbers in range yields the number that `double` yields (Proofs/IeeeRun), induction over the cells with the bounds of C67 (Props/Ieee64); state-dependent feedback with the bounds of C108 (Proofs/IeeeState, Props/IeeeState) |
| C115 | runs of both models in `F64` (C113) and in `FR double` (C67) | each operation: a finite result of finite operands is the rounded exact result; `exp` of an overflowed negative quotient is 0 in both arithmetics; induction over the steps (`Proofs/Finite64`, `Props/Finite64`) |
| C116 | every method written out again with one `assign` per assignment of the source (`Model/Interrupt`), refined to the methods of the model; `cut k` is the object left by an interrupt after `k` assignments | the written-out calls equal the calls (`whole_call`); what an interrupted call cannot change is kept by every assignment (`Tr.Keeps`), by induction over the history; simulations depend only on it (`Proofs/Interrupt*`, `Props/Interrupt`) |
| C117 | the methods of `Model/Interrupt` as trees of readings and assignments, every statement reading attributes and time index anew; `Tr.threads` interleaves any family of them by a schedule (`Spec/Threads`) | separate objects: the interleaving factors into the turns of each thread, by induction over the schedule, and every thread refines its calls (`threads_separate`, `Kind.whole_thread`); shared: every assignment keeps what simulations use (`Tr.Keeps.threads`); lost step: a schedule for every freshly reset object (`Proofs/Threads`, `Props/Threads`) |
| C118 | `Model/Copies`: the output arrays on a heap, `copy.copy` shares the cell, `copy.deepcopy` copies it, a `reset` or `run_scenarios` that goes through takes a new one; `Spec/Copies`: objects as values | invariants by induction over the program: one owner per array without `copy.copy`; a private array from `reset` on; what is in no array depends only on what was in none (`Py.Sees`), and from a `reset` that goes through on nothing else (`Py.Joins`) (`Proofs/Copies`, `Proofs/CopiesCalls`, `Props/Copies`) |
| C119 | `Model/Release`: names, files (hard links), the system calls of `cmd_sdist.make_release_tree`, `cmd_build_py.run` and `write_to_version_file`; what setuptools does per file is assumed | an invariant (names outside the tree, files made before) kept by every system call because the version file's name is removed before it is opened; induction over the list of files; C79, C80 for what is read (`Proofs/Release`, `Props/Release`) |
| C120 | `Model/Config`: `configparser` line by line (comments, continuation lines, headers, options, duplicates, `[DEFAULT]`), `get_config_from_root`, the start of `do_setup`; `%` in a value is an error | what a line is depends only on section, continuation and indentation, so two files run in step through the section (induction over lines) and nothing after the next header reaches it; appended texts start with a newline, which can only add an empty line to the last value; (1) by kernel evaluation (`Proofs/Config`, `Proofs/ConfigMain`, `Props/Config`) |
| C121 | `Spec/Locked`: threads of blocks of calls with one lock over the assignment-by-assignment model of Model/Interrupt; `oneByOne` is the same without threads. The lock itself (`threading.Lock`) is taken as given: at most one thread in a block | refinement: what remains of the block going on, carried out on the memory now, gives what the whole block gives on the object of the last release (induction over schedules, `Proofs/Locked`); then what calls keep (`used`, `usedNoDt` of C116) is kept from block to block (`Props/Locked`) |
| C122 | `Model/Root`: the texts of files by path and git's answers by directory; `get_root`, `get_versions` with the configuration read by the model of C120, `get_version` | unfolding the search for the root; C120 (1) turns the settings of the repository's file into `setupVersions` of C78-C81; `versions_from_parentdir` looks at three names by induction; (8) from the tree of C119 (`Props/Root`) |
| C66 | runs vs the continuous two-layer ODE under any forcing the drivers sample | exact box solutions + C41-type bound + variation of the forcing |
| C67 | runs in rounded arithmetic; heat uptake of the impulse response for every efficacy | error recurrence, contraction of the update, induction; with efficacy ≠ 1 the errors of C102 and C103 propagated through the step |
| C68, C77 | caller's in-place writes | a step reads one driver cell only; induction over steps |

Nothing on the list had to be left out as not expressible.

## Trusted base

* Lean 4.33.0 kernel. Every theorem depends on no axiom outside `propext`, `Classical.choice`, `Quot.sound`
  (checked by `vcheck`).
* The statements: `Spec/*` and the theorem statements in `Props/*`.
* The reading of the code in `Model/*`. Each definition cites its lines; simplifications are stated there and below.
  As a test of that reading, `Exec.lean` runs the model at `Float`: all 101,075 values recorded in the repo's regression
  files (`tests/test-data`, replayed by `tools/replay.py`) came out bit-identical.
* The assumptions on pint: `Registry.Dimensional` (dimensions behave like a vector space over ℚ) and `Registry.Lawful`
  (a positive scale per unit; conversion multiplies by the ratio of scales; J = W s, year = 365.25 days, month = year/12),
  hypotheses of the theorems that need them. `Spec/RefRegistry` shows they can be met.

### Modelled

All of `src/openscm_twolayermodel`, the version computation of `versioneer.py` and two packaging scripts, except what follows.

### Not modelled, or simplified

* **numpy/pint.** Offset units (`degC` as a temperature); array-valued parameters other than C107's (one value per member, equal numbers of members); complex and numpy integer
  *scalar* magnitudes (the square root of a negative Python number is an error value instead of a complex number).
  `XR` and `FR r` have Python numbers only; `np.float64` magnitudes are in `Spec/Scalars`, and C106 says when the kind matters; drivers with more than two dimensions, and with two other than in C107, assigned through `erf` directly;
  `x ** 2` is `x * x`, `x ** 0.5` is `sqrt`; unit strings containing numbers (`ur("2 W/m^2")`).
  At `XR` there are no infinities and no signed zeros. `double` is IEEE-754 binary64 with round to nearest, ties to
  even, without overflow and without signed zeros; `double_nearest` proves that it returns a nearest binary64 number.
  `F64` (C113–C115) has overflow, infinities, NaN and signed zeros; it has one NaN, `exp` and `sqrt` are correctly rounded,
  and `x ** 2` of a Python number overflows to infinity where Python raises `OverflowError`. C114 proves that runs in range
  are the same at `F64` and at `FR double`.
* **Aliasing.** Values are immutable in the model except where a property is about sharing. C68/C77: in-place writes to the
  driver array, on the assumption that `Quantity.to` of the unit it already has returns the same array and otherwise a new
  one. C99/C100: in-place conversions `q.ito(unit)` of Quantities that are also parameters of objects, default arguments
  or the drivers, on the assumption that `ito` rebinds magnitude and unit of that Quantity only, that a scalar magnitude read
  before is unaffected, and that a float array magnitude is multiplied in place. C118: `copy.copy` of an object shares its three
  output arrays, `copy.deepcopy` copies them; the other attributes are values (objects that also share Quantities, and pickling,
  are not combined with this). (Read in pint's source as of the pinned
  requirement, not in `/repo`.) In-place writes to arrays obtained from private attributes are not modelled.
* **scmdata/pandas** (`run_scenarios`). An `ScmRun` is a time axis with rows of metadata and values. Assumed: `filter`
  treats `*` as the only wildcard; `timeseries()` keeps the order of the rows and refuses duplicate metadata; `ScmRun(...)`
  refuses duplicate metadata and frames without time columns; `pd.concat` takes the union of the time axes and fills with
  NaN; the result has its time axis in the order of the input's. Conversion of non-`ScmRun` input, the copy of the input, and the progress bar are not modelled.
* **`_version.py`.** `\d` and white space are ASCII; `$` is the very end of the string; `int()` accepts plain digits;
  subprocess and file system are data (the outcome of each git command, the path).
* **`versioneer.py`.** Modelled: `get_versions`, `git_get_keywords`, `git_versions_from_keywords`, `versions_from_file`,
  `write_to_version_file` and the file it writes (functions identical to those of `_version.py` are shared). JSON is limited
  to flat objects of strings and constants, without lone surrogates; Python literals to the escapes JSON produces. `sdist` and
  `build_py` (C119) are sequences of system calls; assumed: setuptools' own `make_release_tree` and `build_py.run` place each file
  as a hard link or a new copy and change nothing else. Reading `setup.cfg` (C120) is modelled
  with Python 3.11's `configparser` line by line, ASCII white space and letters, no interpolation; elsewhere the values are constants,
  which C120 (1) derives from the file; C122 finds the root directory and reads the file there (paths without symbolic links). Not modelled: py2exe and cx_Freeze. The installer (`do_setup`, `do_vcs_install`, `scan_setup_py`) is modelled on
  file texts, with the configuration present and without the final `git add`.
* **`setup.py`, `scripts/`.** The long description and the requirements check; not the import test, not setuptools.
* `docs/`, `tests/`: not modelled.
* Python-level facts: exceptions from outside (MemoryError, KeyboardInterrupt, signals) are modelled in C116 only: after any
  assignment of a call on an existing object, one assignment being atomic. Threads are modelled in C117 and C121 only: a switch can happen
  at any reading or assignment, all readings of one statement being one; a lock (C121) is given: one thread at a time. Not modelled: threads inside pint, numpy or scmdata and
  their global state (the unit registry), subclassing, direct writes to
  private attributes.

# DESIGN — formal model of hyperpack in Lean 4

## 1. What is modelled, and where

The model is written in plain Lean 4 under `lean/Verif/Model/`; it mirrors the
Python functions branch by branch.  Python exceptions are values of `Except PyErr`.
Specifications that do not mention the model are in `lean/Verif/Spec.lean`; helper
lemmas are in `lean/Verif/Proofs/`; the property theorems are in `lean/Verif/Props/`.

| layer | Lean module | Python |
|---|---|---|
| sizes, points, rectangles, error values | `Types.lean` | - |
| Python values, indexing, slices, ordered dicts | `Model/Py.lean`, `Model/Value.lean` | language semantics |
| container grid, `_check_fitting`, `_generate_points`, `_get_current_point`, `_construct_solution`, `_solve` | `Model/Construct.lean` | `mixins.py` 19-625 |
| the attributes of an object, `solve`, objective value, deep copies, strip height | `Model/State.lean` | `heuristics.py` 36-91, 263-315, `mixins.py` 1066-1137, `structures.py` 234-294 |
| local search | `Model/LocalSearch.lean` | `abstract.py`, `mixins.py` 1092-1218 |
| local search, every subclass | `Model/AbstractSearch.lean` | `abstract.py` |
| single process hypersearch | `Model/HyperSearch.lean` | `heuristics.py` 424-521 |
| multi process hypersearch, worker processes, shared array, queue | `Model/MultiProcess.lean` | `heuristics.py` 523-563, `processes.py` |
| Dimensions, Containers, Items | `Model/Structures.lean` | `structures.py` |
| settings, figure settings | `Model/Settings.lean` | `heuristics.py` 194-260, 370-422, `mixins.py` 674-805 |
| sorting, orienting | `Model/ItemsManip.lean` | `mixins.py` 970-1063 |
| constructor, property setters, dict methods inherited from `UserDict`/`MutableMapping` | `Model/Instance.lean` | `heuristics.py` 25-315, `structures.py` |
| logging, figures, generator | `Model/Report.lean`, `Model/Utils.lean` | `mixins.py` 628-671, 807-963, `utils.py` |
| the whole object as a state machine: `Op`, `step`, `Reach` | `Model/Machine.lean` | all public operations |
| `Items`, `Containers` and `Dimensions` objects with identities: `World`, `WOp`, `WReach` | `Model/Objects.lean` | `structures.py`, `UserDict.copy` |
| several problems, structure objects with their owner, shared settings dicts, copies of problems | `Model/Program.lean` | `heuristics.py`, `structures.py` |
| the `PointGenPack` class | `Model/PointGen.lean` | `heuristics.py` 178-325 |
| subclasses that override the default settings | `Model/Subclass.lean` | `heuristics.py` 178-260, 330-422 |
| records that are logged (INFO to ERROR) | `Model/Logging.lean` | `exceptions.py`, `heuristics.py`, `mixins.py`, `processes.py` |
| the states after each write of every call (interrupted calls) | `Model/Interrupt.lean` | all public operations |
| `create_figure` with its effects on files and browser | `Model/Export.lean` | `mixins.py` 821-963 |
| `str` of structures, text of `log_solution`, axes of figures | `Model/Text.lean` | `structures.py` 185-337, `mixins.py` 628-671, 814-900 |
| specifications (no model functions; `SpecPoints.lean` uses the rounding parameter `Arith`) | `Spec*.lean` | - |
| property theorems | `Props/*.lean` (Packing C01-C12, C15; Search C16-C24, C56; HyperSearch C22, C26-C30; MultiProcess, Workers C31-C35, C57, C58; Structures C13, C14, C25, C36-C46, C59; Settings C47-C49; Items C50, C51; Report, ManyItems, Files C52-C54; Utils C55; Constructor C60; Metamorphic C61-C64; Room C65, C66; Height C67, C68; PointGen C69; Api C70; Visited C71; Handles C44, C72-C75; Heuristic C76, C77; Units C78; Names C79; UnitsSearch C80; Float C81; Float C82; Rounding C83; Text C84; Text C85; Axes C86; Edges C87; Equal C88; Symmetry C89; Symmetry C90; AbstractSearch C91; Compare C92; SettingsStored C93; Errors C94; Frame C95; Again C96; Subclass C97; Logging C98; Interrupt C99; Export C100; Work C101; FirstFit C102; Removal C103; Anomaly C104; Standalone C105; Hill C106; Rounds C107; Team C108; Unvalidated C109; Unvalidated C110; TimeLimit C111; Programs C112; Programs C113; History C114; WideItems C115; TallItems C116; Objective C117; Columns C118; Rows C119; ObjectiveSearch C120; TwiceOptimal C121; Reproducible C122; Effort C123; Interchange C124; Grid C125; Grid, StripGrid C126; Comeback C127; DebugLog C128; SearchLog C129; Decreasing C130; DecreasingWide C131; Divisible C132; Fewer C133; Filled C134) | - |
| the repository's own point tests, evaluated on the model (tests, not proofs) | `Conformance.lean` | `tests/points_tests` |
| the error cases of the repository's own tests (tests, not proofs) | `ConformanceErrors.lean` | `tests/settings_tests`, `tests/structures_tests`, `tests/test_*.py` |
| the results the repository's own tests expect of solve, local_search, hypersearch, sort_items, orient_items, log_solution (tests, not proofs; the long ones are `longRuns`, evaluated by hand, all true) | `ConformanceRuns.lean` | `tests/solving_tests`, `tests/strip_pack_tests`, `tests/test_*.py` |

### Modelling decisions

* **Floating point.**  Python floats appear only in objective values, the `<= 0.2` ratio tests, the
  ratio sorting key and the time differences.  The model takes a record `Arith` with the operations
  the code performs (`w*l/(W*L)`, `+`, `sum`, `0.7*x`, `a/b <= 0.2`, `a/b`, `t1 - t0`) on rationals, each of
  which may return any value, i.e. any rounding.  All theorems about packings, searches and
  termination hold for *every* `Arith`; theorems about the *values* use the exact
  instance `Arith.exact`, and say so.  C32 assumes that values are not negative (`NonNeg`).
  `Model/Float.lean` gives the instance `Arith.double`: IEEE 754 binary64, round to nearest, ties to
  even, with unbounded exponents (no overflow, no subnormal numbers) and `sum` adding from the left
  (CPython up to 3.11); C81 - C83 are about it.  The chunk size of the multi process search
  (`ceil(n / workers)`) is taken as exact; `C31_rounded` shows that binary64 gives the same.
* **Python values** (`PyVal`) are None, bools, ints, finite floats, infinity, strings, tuples, lists, dicts and
  "other objects"; everything a user assigns is a `PyVal`.
* **Python indexing.**  `xs[i]` is `pyGet` with negative wrap-around and `IndexError`;
  slice assignment follows Python's clipping rules; `range` with negative step is
  modelled as a descending list.
* **`while True`** is a loop with fuel; running out of fuel is an error value distinct from
  all Python errors, and a theorem shows that it never occurs (this is the termination theorem).
* **dict** is an association list in insertion order with Python's update-in-place rule.
* **Time** is a stream of clock readings (a parameter): every theorem about searches
  is for every stream.
* **Set iteration order** (`get_strategies`) is a parameter.
* **Processes** are interleaved by an arbitrary schedule, at the granularity of one access to the shared
  array, to the queue, and one strategy; reading the whole array is one access (the code reads it
  in one expression; each element has its own lock-free read).  A worker may raise, be killed at any point, or block.
* **Paths.**  `export_path / name` is normalised as POSIX `pathlib` does (C54).
* **Object identity / aliasing.**  The code deep-copies items before solving, the model is pure.  The operations of
  `Op` act on the current `problem.items` / `problem.containers`.  `Model/Objects.lean` has the `Items`, `Containers` and
  `Dimensions` objects with identities: any of them, current, replaced or copied with `copy.copy`, can be edited at any time
  (`World`, `WOp`, `WReach`; C44, C72 - C75).  `|=` is modelled separately for C37.  `|` and objects that belong to no problem:
  `Model/Standalone.lean` (C105).  Not modelled: direct access to `.data`, and `copy.deepcopy` of a structure (which
  clones the whole problem).
* Text output (`Model/Text.lean`): `str` of items and containers, the text of `log_solution` with its
  `.4f` percentages, ticks and ranges of the figure axes.  The wording of warnings and
  error messages is not modelled (errors are named by class and message constant; which records are logged is C98).
  Debug records of `local_search` and of `hypersearch` in the parent process: `Model/DebugLog.lean` (C128),
  `Model/SearchLog.lean` (C129); those of construction and of worker processes are not modelled.
* Theorems about searches are stated for instances with `i.Valid`; `Reach.good` shows that every instance reachable
  from the constructor by any history of operations is valid, so they apply to all reachable states.

## 2. Plan per property

Status words: *prove* = full statement; *refute* = the unchanged code violates the
statement; a concrete witness is proved, and the strongest true part is proved as `_partial`.

* **C01** — refute: the last row of an item is only tested at its two corners (`range(Yo, Yo + l - 1)`), so a 1-high item can be laid across another item; witness by kernel evaluation of the model; C02 is the true part.
* **C02** — prove: loop invariant (cells non-zero iff covered; every placed origin and every pending point supported from below or left) + minimal-column argument for the untested row.
* **C03** — prove: from the fitting test, by loop induction.
* **C04** — prove: pool/placed permutation invariant through all containers.
* **C05** — prove: loop invariant on placements.
* **C06** — prove: grid well-formedness gives no out-of-range read; measure = pending points + perimeter of remaining items bounds the fuel.
* **C07** — prove: exact sum by induction; bound by counting covered cells.
* **C08** — refute: the code divides by the index of the top row (height - 1); witness; `_partial`: value = area / (W * max 1 (height-1)).
* **C09** — prove: same invariant as C02, no sliver hypothesis.
* **C10** — prove: first loop iteration analysed on the empty grid, later iterations only add.
* **C11** — prove: `_get_current_point` against a declarative spec; empty strategy corollary.
* **C12** — prove: ghost list of visited points; fitting is antitone in the grid.  ("fits" is the code's own test, which ignores the interior of the last row, see C01.)
* **C13** — prove: frame theorem for `step`.
* **C14** — prove: non-interference theorem for `step`.
* **C15** — prove: equality of pools.
* **C16** — prove: objective never decreases along the search, for every clock.
* **C17** — prove: invariant `retained = solve of a permutation`.
* **C18** — prove: strictly increasing objective over a finite set of (permutation, height) values.
* **C19** — prove: analysis of the final neighbourhood scan.
* **C20** — prove: scan length bound.
* **C21** — prove: scan stops at the first late clock reading.
* **C22** — prove: same invariant as C17, and for hypersearch.
* **C23** — prove: invariant of the strip search.
* **C24** — refute (initial solution is never checked) + `_partial`: if the initial packing is complete so is the result.
* **C25** — prove: reachable-state invariant.
* **C26** — refute + `_partial`.
* **C27** — prove: fold invariant.
* **C28** — prove: for every nodup ordering of the point set.
* **C29** — refute (strategy left at the last one tried; default reported) + `_partial`.
* **C30** — refute (the optimum is infinite): the search never stops early; `_partial`: stops at end of list or time-out.
* **C31** — prove: chunk arithmetic.
* **C32** — prove: per-process invariant independent of the schedule, then arg-max.
* **C33** — prove.
* **C34** — prove: both are the maximum over the same set of values.
* **C35** — refute (queue read blocks) + `_partial` for exceptions instead of kills.
* **C36** — prove: reachable-state invariant over the operation language.
* **C37** — refute (`UserDict.__ior__` writes to `data` directly) + `_partial` (valid entries).
* **C38** — prove.
* **C39** — prove.
* **C40** — refute (a valid first entry resets before a later entry fails) + `_partial`.
* **C41** — prove.
* **C42** — prove.
* **C43** — prove: reachable-state invariant.
* **C44** — prove by reachable-state invariant as `_partial`; refute for edits through a replaced `Containers` object.
* **C45** — prove: iff.
* **C46** — prove: iff.
* **C47** — prove.
* **C48** — refute (any value comparing > 0, e.g. 2.5) + `_partial`.
* **C49** — refute (string comparison of versions; `$` admits a trailing newline) + `_partial`.
* **C50** — prove: insertion sort on (key, id) pairs.
* **C51** — prove.
* **C52** — refute (division by zero for an empty strip packing) + `_partial`.
* **C53** — refute (1000 colours) + `_partial`.
* **C54** — refute (path normalisation merges ids with `/`) + `_partial`: string injectivity, and path injectivity without `/`.
* **C55** — refute (lower bound may be <= 0) + `_partial`.
* **C56** — prove.
* **C57** — refute (`join` before `queue.get` with a full pipe) + `_partial`: progress of the process system.
* **C58** — prove: the searches do not depend on clock values below the limit; confluence of the worker processes.
* **C59** — prove: iff for each edit, and the effect on the dict.
* **C60** — prove: iff for the constructor, and the new state.
* **C61** — prove: induction over the containers; the loop only looks forward.
* **C62** — prove: two runs of the construction loop side by side (`Proofs/Order.lean`, relation `OrdSim`): same grid, points and placements, fewer items; then over the containers.
* **C63** — prove: every function of the construction commutes with the renaming (`Proofs/Rename.lean`), also for errors.
* **C64** — prove: the same simulation as C62 with the pool in placement order (`Compat`).
* **C65** — prove (`Proofs/Top.lean`): invariant of the construction: the free rows above the stack stay reachable, i.e. a point at the left wall on top of the stack is either waiting in class A, A' or E or was rejected for all remaining items; `C65_needs_A` shows the hypothesis on the strategy is needed.
* **C66** — prove: from C65, the stack is at most the sum of the heights of the placed items; with C24_partial for local_search.
* **C67** — refute (the 20% test that separates B' from F points divides by `container_height`; witness with the default strategy) + `_partial`: simulation between the runs of two heights (`Proofs/Height.lean`), with stutter steps for points above the lower container; same result if the strategy has neither B' nor F, or the test agrees, in particular (exact arithmetic) for all heights >= 5 x the stack.
* **C68** — prove (`Proofs/Pile.lean`): induction over the loop; an item at the left wall opens exactly one A point, above it.
* **C69** — prove (`Proofs/PointGen.lean`): simulation between the two classes, call by call; all reachable-state theorems transfer.
* **C70** — prove (`Props/Api.lean`): composition of C50, C51 with C27, C28, C31, C32 at the level of one API call.
* **C71** — prove (`Proofs/Priority.lean`, `Props/Visited.lean`): loop invariant over the prefixes of the placements; the pool is a sublist of the items in order.
* **C72** — Objects with identities (Model/Objects.lean): a heap of Dimensions and Items/Containers objects, the problem refers to two of them. Well-formedness of the heap is an invariant of all operations; calls through the current objects simulate the model without identities; other calls are framed.
* **C73** — Objects with identities (Model/Objects.lean); the entry of the id in the current structure object is followed through every operation.
* **C74** — Model/Objects.lean with UserDict.copy and __copy__ of the standard library. Expected to be false: UserDict.copy of a Dimensions object uses __setitem__, which resets the problem.
* **C75** — Invariant of all worlds reachable in Model/Objects.lean; a state without solution is reachable by assigning to a size the value it has, so discarding by a replaced object is no new state.
* **C76** — Relational specification `Packs`/`Fills`/`Handles`/`Takes` over rectangles (SpecPoints.lean), refinement proof from the grid program: the marks of a grid determine the rectangles as long as these are disjoint (Proofs/Marks.lean), then induction over the run; uniqueness of the specification's result by induction.
* **C77** — Geometric specification `Spawns` by point class; the reads of the marks 2/3 are shown to test for free and covered cells; the scans by induction.
* **C78** — From C76: every clause of the geometric specification commutes with scaling (cells are divided by the factor; resting points are multiples of it because the cell before is covered), then uniqueness of the specification's result.
* **C79** — Proofs/Hom.lean proves generically that a correspondence of instances that commutes with the elementary operations commutes with local search and with single and multi process hypersearch; Proofs/RenameSearch.lean instantiates it with renaming. Refutation for sorting with renamings that change the alphabetic order.
* **C80** — C78 for every solve, and the generic correspondence of Proofs/Hom.lean; the sorting keys are multiplied by a positive factor. Assumes of the floating point quotients that they depend on the ratio only (true of exact arithmetic; C80_exact).
* **C81** — binary64 round-to-nearest-even modelled on rationals (Model/Float.lean, exponent unbounded); the reported value is a fold of rounded additions of rounded quotients (C07_rounded); each operation contributes a factor between 1 - 2^-53 and 1 + 2^-53; Bernoulli. Integers: a fraction below 1 is below by at least 1/area.
* **C82** — exact overall values are fractions with denominator 10 * D, so different ones differ by 1/(10 D); the accumulated rounding error of C81 and of calculate_obj_value is smaller (Near.lt). Transferred to the searches by C16, C19, C22, C27.
* **C83** — lock-step simulation of the construction under two arithmetics; where one stops and the other does not the container is full (C81), and a full container accepts nothing (area argument on the geometric invariant). The quotients compared with 0.2 differ from it by at least 1/(5 W) or are equal.
* **C84** — texts as lists of characters; the lines of the joined text computed by splitting at line breaks, injectivity of decimal notation from the library.
* **C85** — text model on top of the report of C52; error bound of the two roundings, then of rounding to four decimals.
* **C86** — containment from C43 and the report length; the rounding error of the quotient is below 1/20, so ceil is exact.
* **C87** — invariant of the loop: a cell marked 1 has occupied neighbours, so both scans stop at the first occupied cell; pending points and placed items lie on walls or far edges; sums by strong induction over the placement order.
* **C88** — invariant: positions are multiples of the size (C87), so the packing is a set of grid cells; while a grid cell is free some point is pending; upper bound by counting lattice points hit by disjoint rectangles.
* **C89** — simulation between two runs of the specified heuristic (C76) under a renaming of points, rectangles, sizes and classes; the conditions for the points are symmetric for the classes that do not slide.
* **C90** — the search for a fitting item returns the same answer as long as it does not return a turned item; induction over the loop and the containers.
* **C91** — Model/AbstractSearch.lean models the class with the overridable methods as parameters; SpecClimb.lean defines a climb. Induction over the neighbours and the nodes; termination because values strictly improve, so sequences never repeat. A simulation shows that the model of HyperPack's local search (C16 - C24) is the instance for HyperPack.
* **C92** — C70/C32 (best of the strategies tried) and determinism of local searches within the time limit (C58).
* **C93** — The validated settings are followed through validateHyper and validateFigure; StoredAs relates the given to the stored dict (key by key), StoredAs.stable and StoredAs.accepted give idempotence; C93_files produces the premises of C53_partial from accepted settings.
* **C94** — A small specification (SpecErrors) says what is wrong with a value and which exception belongs to it, without reference to the code: for each edit an iff between the outcome of the call and that fault. Settings and constructor: the ordered list of conditions, the first one that holds decides (FirstOf); the code's nested tests are shown to be the verdict of that list (Says), by composition.
* **C95** — A table mayChange of attributes per call (SpecFrame) and an equality per attribute; every operation of the machine keeps the attributes outside the table (composition of Keeps), searches by the frame lemmas of C17 and C27; histories by induction.
* **C96** — Results within the time limit depend only on the task (C58); C95 shows that the calls in between keep the task; heights by C23 and C25; the refutation is a concrete strip on which both searches are computed by the kernel.
* **C97** — Model the three class constants as parameters of the settings validation (Model/Subclass.lean); a correspondence that writes the missing settings out commutes with every call (the searches by the homomorphism lemmas of Proofs/Hom); induction over histories; the refutation is a concrete two-worker search computed by the kernel.
* **C98** — Model the records of levels INFO to ERROR in the calling process next to the state machine (Model/Logging.lean): an exception of the library logs when it is created, and the handlers of the library are followed. Errors by cases over the calls; failed workers by the invariant of the schedules (Proofs/MultiProcess); warnings against small separate predicates (SpecLogging).
* **C99** — Model every call by the list of states after each of its writes (Model/Interrupt.lean); the last one is the state of the complete call (C99_complete); the searches are run on an object that remembers its states (homomorphism lemmas). Invariants per call: states during an edit, during a search; by induction over histories with cuts every state is legal. The refutations are concrete cuts computed by the kernel.
* **C100** — Model create_figure as a function on the files and the list of shown figures, with an oracle for writing and showing (Model/Export.lean); it ends like the function of C53 (C100_agrees). Induction over the containers: the effects of a prefix that goes well, then the container that fails. Retry: two disks that agree outside the files of the containers stay so and are equal at the end.
* **C101** — A record of the visited points (pointsUsed, as in C12) and of the calls of _check_fitting (findFitT, proved to return what findFit returns) beside the loop. Points visited + pending = 1 + points spawned. A placement spawns at most 4 points of the classes A and B, and a C or D point only for a rectangle placed before whose right or upper end lies there, a different one for each. Without overlaps, the C points of the whole run are different bottom right corners and the D points different top left corners (invariant SpawnedPts).
* **C102** — The problem cut off behind the container has the same solution up to it (C61), and the item is left over in it, so C12 applies; gaps by C10.
* **C103** — Two runs of the construction loop on both pools agree round by round until an item that only one has is placed (constructLoop_prefix); the containers before by C62 on the problem cut off there and C61.
* **C104** — Counterexamples evaluated by the kernel for four of the changes; the fifth (more containers) by C61.
* **C105** — Model/Standalone.lean: the classes with instance=None and the operators of UserDict; invariants by induction over histories of methods; merged dicts by membership lemmas.
* **C106** — SpecHill.lean: big-step relation Hill, parametrised by packing, acceptance, height rule, limit and clock. Refinement by induction over the trace of the modelled loops, with the invariant of Proofs/LSPath.lean; uniqueness of the outcome by induction over the relation.
* **C107** — SpecHyper.lean: relation Hyper on top of Hill (C106). Refinement by induction over the loop with the invariant of Proofs/HyperSearch.lean; uniqueness by induction over the relation.
* **C108** — Spec FirstBest in SpecHyper.lean on top of the relation Hyper (C107); from the schedule invariant of Proofs/MultiProcess.lean (each worker simulates a single process search) and the first index of the maximum of the shared array.
* **C109** — False of the code (the value is stored before it is validated, and settings are applied one by one). Proved: exactly what a rejected assignment leaves behind, that the problem and solution are untouched, that the next accepted assignment has the effect it would have had without the rejected one, and that assigning the old settings restores the problem. Case analysis of the validation functions; relation Takes (the setting asked for, or the old one).
* **C110** — Homomorphism of the state machine: replacing the stored settings commutes with every call that does not read them (leave_step), extended to histories by induction. False of the code for hypersearch with several workers (they are constructed from the stored settings) and for create_figure (it reads the stored figure settings).
* **C111** — From the search rules of SpecHill and SpecHyper, which the code follows (C106, C107, C108): induction over the climb and over the strategies gives the bound on the readings, and that a run depends only on the readings it takes. C111_sharp: the bound is reached, a reading equal to the limit does not end hypersearch(), nor does a single late one.
* **C112** — Model/Program.lean: a heap with any number of problems, structure objects with their owner (`instance`) and settings dicts by reference. Invariant: every problem's objects are its own and pairwise different; then each call is simulated by the one-problem machine and frames all others (C112_own, C112_others, C112_independent, C112_history), and every problem of a program is a reachable state of the one-problem machine (C112_reach), so all other properties apply to it.
* **C113** — In the heap model of C112. Deep copies: full simulation and frame over all later histories. Shallow copies share the Items and Containers objects, which go on to belong to the original: C113_refuted_copy shows for every in-place edit that it is carried out on the original and leaves the copy's solution stale; C113_copy_partial what does hold (equal at first; calls that use only the copy's own attributes are independent).
* **C114** — SameInput = all attributes equal except result, best strategy, heights history. For every operation a lemma that it commutes with replacing these (Proofs/Past.lean, searches by the homomorphism theorem InstHom); C114_step, C114_equal, C114_history, C114_after by composing; C114_rebuild computes the constructor and the setters on the data of a reachable state.
* **C115** — SpecFirstFit.lean states first fit on bins with loads. A container of solve is the greedy choice from the item order (only the point at the top of the stack can take an item, invariant over the placements); Proofs/OneDim.lean relates filling bin by bin (as solve does) with placing item by item (as first fit does); C115_two by adding up loads, with an area argument at the middle column for the lower bound.
* **C116** — As C115, with the axes exchanged; the bins of SpecFirstFit.lean are filled along the widths (turnedItems).
* **C117** — Model/Objective.lean: the loop with an arbitrary objective. Simulation with the loop whose value stays 0 (forget the value of the state): the runs agree until the first stops; induction over the containers.
* **C118** — The heuristic of C76 (rectangles only) is run with an invariant: the layout consists of columns, the points that are pending in finished columns can take no item, the next point that can is the top of the current column or the foot of the next one; each placement is one step of first fit, bin by bin (Proofs/Columns.lean).
* **C119** — As C118 with the axes exchanged; the spawning of points is not symmetric (points of class F/B' need a free way beside them, those of E/A' do not), so the invariant is proved again (Proofs/Rows.lean). Strips one unit high are excluded because for them the code may overlap items (C01).
* **C120** — The subclass's solve is solveO of C117; its search operations instOpsO are run by the same lsRun. run_clsOf shows that any lsRun is a run of the abstract search of C91 (optimization MAX), so C91_climb applies once the operations are shown to behave (binBehaves); the hypersearch by an invariant of its loop (HSInvO).
* **C121** — The columns (rows) are filled by first fit (C118, C119), so of two columns the later of which is used the lengths are together more than L; used columns fill whole containers; a competing container has at most n columns' worth of length, because every rectangle of width w meets exactly one of the lines x = w-1, 2w-1, ... The factor 2 is reached (twiceDemo_run).
* **C122** — get_strategies iterates over set(DEFAULT_POTENTIAL_POINTS_STRATEGY), so the strategies are tried in an order that depends on the hash seed: HSArgs.order, any permutation. The set of strategies does not depend on it and local searches are deterministic (C58), so in bin packing the value is the maximum over the same set; but the search keeps the first packing with the maximum, so the packing differs, as a problem in which the first strategy of either order fills the container shows.
* **C123** — C106_climb reduces local_search to the hill climbing of SpecHill; a natural number raised by every move bounds the scans (hill_effort). In bin packing the values are whole multiples of 1/(10 D) and every move raises the value. In strip packing every node after the first is a packing of all items, so its value is a function of its height, and a larger value within the current container_height means a smaller height. Hypersearch: the heights carry over from strategy to strategy, so the shrinking pays for all of them (C123_hypersearch).
* **C124** — C63_names (renaming) with the transposition of the two ids, and a lemma that the transposed dict has the same entry for every id; the neighbour exchanges are transpositions of ids (neighbours_swap), and the hill climbing of C106 has no move.
* **C125** — C118/C119 reduce the packing to first fit over columns or rows; first fit of equal items fills bin after bin (fillBins), which is turned into coordinates. Upper bound for any packing: every item covers exactly one cell whose coordinates are w-1 modulo w and l-1 modulo l.
* **C126** — C125_rows gives the rows; items of any packing cover cells of the grid (packing_bound), so fewer rows cannot hold them. For the default strategy the claim is false of the code: C125_grid gives one column (C126_pile), and C124 says that exchanges of equal items change nothing (C126_pile_search). For the exhaustive search (StripGrid) every climb therefore stays at its first packing and at the same height, every strategy is of the row or the column kind, and the value of C08_partial orders complete packings by height.
* **C127** — Each worker object is built by the constructor from the parent's containers, items and settings (worker_created): it succeeds if the figure settings are accepted by the environment of the search; then the search of the workers returns for every share of time (C127_returns_partial). If the figure settings are refused then, hypersearch() raises that error (C127_refused), and C127_refuted is such an instance for which solve() and local_search() go on working.
* **C128** — The records are a function of the log of the search's nodes (Model/DebugLog). SpecReports says which reports a climb gives; path_reports proves by induction on the trace that the log is those reports, and the rest is read off the specification by induction. For the last claim with throttle: 73 items of which 70 fit nowhere; C115 reduces solve to first fit of the other three.
* **C129** — Model/SearchLog repeats the loop of the search with its calls of the logger, and the end of the parent process. By induction on the strategies (with the invariant HSInv of C27) the records are `told` of the strategies tried and their values; the claims are read off `told`. For several workers the winner of C32 (multi_winner) is identified with the index that is looked up.
* **C130** — Columns (rows) are bins filled by first fit (C118, C119). If the items come longest first, no later bin has an item longer than all of an earlier one; the classical argument for first fit decreasing then bounds the number of bins used by 3/2 of any number m with total length at most m bins and at most m items of more than half a bin. A competing packing into M containers gives m = M times the number of columns: its items are stacked in disjoint columns, and the items longer than half a container are cut by the middle line.
* **C131** — By C115 (C116) solve is one-dimensional first fit with one bin for each container. The argument for first fit decreasing is that of C130 (decreasing_bins) with one column for each container: a competing packing has at most the container's length in a container (C115_lower), and at most one item longer than half of it, as two such items would both cover the middle.
* **C132** — Columns (rows, piles) are bins filled by first fit. When an item of length s goes to a later bin, the items of at least s in an earlier one, whose lengths are multiples of s, leave less than s of it, so they are as much as multiples of s can be (firstFit_full). In a competing packing the items of at least s, cut into pieces of length s, are counted on a grid of points with steps w and s, each piece covering just one, so that a container has no more of them than there are grid points (multiples_columns).
* **C133** — What solve made of the larger problem, without the items left out, is a packing without overlaps (C02) that competes with the result for the rest (part_competes); where C132 applies the latter is as good as any.
* **C134** — By C118 the items are packed as by first fit into columns; an item of length s in a later column means that the earlier column had no room for it when only items of at least this length had come (firstFit_full); their total is a multiple of s, and so is L, so the column is full.

## 3. Trusted base

* Lean 4.33.0 kernel; axioms at most `propext`, `Classical.choice`, `Quot.sound`
  (checked by `#print axioms`, no own axioms, no compiled evaluation).
* The reading of the Python code: every model definition cites file and lines.
* Not modelled: plotly/kaleido themselves and the file system beyond paths and contents (an oracle parameter
  tells whether a write succeeds), the logging module, memory limits, `multiprocessing` start-up failures, subclass
  overrides of class constants other than the three default settings (C97), direct writes to private attributes.

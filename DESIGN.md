# Formal model of trumania in Lean 4: design

## 1. What is modelled, and how

The Python code in `/repo` is modelled function by function as total, computable Lean functions over
lists, rationals, strings and small structures.

* `lean/Verif/Model/*`: transcription of the code. Every definition cites the file and the lines it
  transcribes, or says which library call it stands for, and says what is simplified.
* `lean/Verif/Spec/*`: vocabulary used to state the properties. It does not use the helpers of the model
  that the properties are about.
* `lean/Verif/Proofs/*`: auxiliary lemmas.
* `lean/Verif/Props/*`: the property theorems, named `C<nn>_...`, each followed by `example`s showing that
  a concrete non-trivial case meets its hypotheses.

`properties.jsonl` lists the properties, `MANIFEST.json` the theorems that prove each of them,
`seeded/LOG.jsonl` the wrong programs the theorems were tested against. `tools/coverage.py` lists the
functions of `/repo/trumania` and the definitions that cite them.

### Conventions

* **Exceptions are values**: `Py α := Except Err α`, with one constructor of `Err` per Python exception
  class (`ValueError`, `KeyError`, `TypeError`, `IndexError`, `AttributeError`, `AssertionError`,
  `EnvironmentError`, `ZeroDivisionError`, and one for an exhausted recursion bound). Every branch that
  raises in Python, pandas or numpy raises in the model; messages are left out.
* **Mutable objects** live in explicit states. Calls with side effects are `Act W α := EStateM Err W α`:
  they return or raise, and in both cases leave a state (so the effects made before an exception are
  kept, as in Python). Objects shared by several others (populations, relationships, stories, generators)
  are referred to by their position in the lists of the `World`.
* **Numbers**: Python ints are `Int`/`Nat`; floats are exact rationals `Rat` (the rounding of IEEE doubles
  is *not* modelled); NaN and None are `na`/`none`. Dates and durations are integers of nanoseconds, as in
  pandas.
* **Values**: `Val = na | bool | num | str`; a cell of a frame is a value or a list of values.
* **Dictionaries** are association lists in insertion order.
* **DataFrames** are lists of labelled rows with a list of column names. Columns have no dtype. Index
  merges are modelled in the order of the left rows.
* **Files**: a file system is a dictionary from paths to directories or texts. CSV files are modelled at the
  level of characters: the writer of CPython's `_csv.c` and the tokenizer of pandas.
* **What the libraries leave open** is a parameter with a contract, and the theorems hold for all its
  values: iteration order of sets (`SetOrder`), ties of numpy's unstable `argsort` (`ArgSort`), order of
  `os.listdir` (a `SetOrder`), random numbers (`Rng`: arbitrary functions of the generator state, whose
  values are in the documented ranges; `choice` is transcribed from numpy in terms of these), generators
  (`GenSem`), texts of numbers and type inference of CSV files (`TextFormat`), JSON documents
  (`DbFormat`), the edges drawn by networkx, the `beta` distribution of scipy. Each contract is inhabited
  by a concrete instance in the Lean code, used in the examples.
* **Loops that may not terminate** (`while` loops of `latest_date_before` and of the construction of the
  cyclic timers, recursion of `ensure_non_existing_dir`) take a `fuel`. Running out of it is a result of its
  own, and the theorems say when it does not happen for large enough fuel, or (C13) that it happens for
  every fuel.

### The model, file by file

| model | code |
|---|---|
| `Base` | values, exceptions, dictionaries, orders of sets |
| `Util` | `util_functions.py`: merges of dictionaries, `cap_to_total`, `build_ids`, `latest_date_before` |
| `Functions` | `operations.py`: `bound_value`, `bounded_sigmoid`, and other numeric functions |
| `Logistic` | `operations.py`: `logistic`, over the real numbers |
| `Faker` | `random_generators.py`: `FakerGenerator`; the Faker library is a shared stream and one function per method |
| `Rng` | `numpy.random.RandomState`: primitive draws, `choice`, `permutation`; `np.delete` |
| `Clock` | `clock.py`: clock, timestamps, cyclic timers and their profiles |
| `Relationship` | `relationship.py`: `Relations`, `Relationship` and all its selections |
| `Generators` | `random_generators.py`: seeds, generator classes, saving and loading |
| `Components` | `profilers.py`; random bipartite data and assignments of `util_functions.py` |
| `Frame` | the fragment of pandas used for story data and logs; actions; operations |
| `Population` | `attribute.py`, data part of `population.py` |
| `Story` | `story.py`: timers, states, forced members; expressions made of generators (`GenRef`) |
| `World` | the objects of a circus; calls of generators, `map` and `flatmap`; chains (`operations.py`); `Story.execute`, `Circus.create_story` |
| `Ops` | `operations.py` and the `...Ops` classes of the other files |
| `AnyGen` | the generator classes as one type, an instance of `GenSem` |
| `FileSystem` | file system calls, `ensure_folder_exists`, `ensure_non_existing_dir` |
| `Csv` | `to_csv` and `read_csv` on texts |
| `Circus` | `circus.py`: creation of objects, run, logs |
| `Networks` | stocks (`population.py`), `erdos_renyi.py`, `assign_random_proportions` |
| `Uganda` | `geographies/uganda.py`: the two stories and their operations, ending with the one that `set_operations` adds |
| `Snd` | `tests/scenarios/test_snd.py`: the constructor of the scenario and its six stories, whose operations end with the one that `set_operations` adds; the networkx graph is an argument |
| `Cdr` | `tests/scenarios/test_cdr.py`: the constructor of the scenario with the geography of `uganda.py`, its six stories and the functions given to `Apply`; the graphs and the operators drawn by `pick_operators` are arguments, as is the `CyclicTimerProfile` of the repairs |
| `Shop` | `examples/tutorial/example2.py`: its functions and its steps 1 to 5, up to `run_and_report`; the sizes are arguments |
| `Music` | `examples/tutorial/example3.py`: its functions and its steps 1 to 4, up to `run`; the sizes and the names of the genres are arguments; `int` on the year and the duration of a song is on numbers |
| `Hello` | `examples/tutorial/example1.py`: its steps 1 to 7, up to `run`; the sizes are arguments, what several steps write in the same way is written once |
| `Blog` | `examples/datacamp-blogpost/03` to `06`: up to `run`; the number of persons is an argument, what several examples write in the same way is written once |
| `Slides` | `examples/presentation/03` to `08`: up to `run`, as in `Blog` |
| `Firsts` | the examples 1 and 2 of `examples/datacamp-blogpost` and of `examples/presentation`, with what they print (`head(10)` of `to_dataframe`); the run of the second one of the blog is that of `Sys.run` |
| `MusicDb` | `examples/tutorial/example4.py`, up to `run`; `db.py`: `save_population`, `load_population`; `circus.py`: `load_population` |
| `Logs` | `load_all_logs` |
| `Empirical` | `db.py`: empirical discrete generators |
| `Namespace` | `db.py`: namespaces; `circus.py`: `save_params_to_db` |
| `Describe` | `description` of circuses, populations and generators, `str(circus)`; the layout of the text of `json.dumps` is left open |
| `Persistence`, `Db` | saving and loading of relationships, attributes, populations, circuses; `db.py` |

### Trusted base

* Lean 4.33.0's kernel, and the axioms listed in section 4 (`propext`, `Classical.choice`, `Quot.sound`). No
  `sorry`, no axiom of our own, no `native_decide`, no `bv_decide`.
* The faithfulness of the transcription, and of the semantics given to the libraries at the pinned versions:
  Python 3.9, pandas 1.4.0, numpy 1.22.0.
* Contracts: `Rng` (documented ranges of the random draws), `SetOrder`, `ArgSort`, `TextFormat.Lawful`
  (a printed number is read back as the same number), the JSON round trip assumed in C66, the ranges and
  monotony of `scipy.stats.beta.cdf/sf` in C49, and of the graphs of networkx in C70 and C72.
* Floating point arithmetic treated as exact. No failure of memory or of the operating system besides the
  modelled ones.

The hypotheses that theorems about histories make on operations are shown to hold for the operations of the
library: `builtIn_respects` (C30-C38), `C59_builtIn_keepsDate` (C59).

### Not modelled

* rounding of floats; dtypes of columns (errors that only depend on the dtype of an empty column); arrays
  mixing types, which numpy converts to texts; sorting of ids of different types (an arbitrary order between
  types is fixed); selecting a column whose name is duplicated (raises in the model);
* `strftime` formatting of dates (a parameter), log messages;
* the Faker library (a parameter of `Faker`), the data set of `uganda.py`, `CyclicTimerProfile.save_to` and
  `load_from` (with `save_timer_gen` and `load_timer_gen_config`: what they read back depends on how pandas
  selects in an index of several levels), `create_random_cells` (it calls `Population` without the circus, so any
  call raises `TypeError`; nothing uses it), `long_cdr.py` (it has the
  scenario of `test_cdr.py` with other parameters, but without the keys `simulation_duration` and `output_folder` that
  `run_cdr_scenario` reads at lines 606-608: it raises `KeyError` once the circus is built), the unit tests;
* symbolic links, permissions, concurrent accesses to files, log ids and names that contain path separators;
* CSV: decimal precision of floats, inference by chunks of big files, names of indices, completion of
  lines that are too short or too long;
* a profile whose origin is not on the grid of the clock steps (pandas' resampling would insert other
  labels), and NaN profiles (weights summing to 0): both are distinguished results of `buildProfile`;
* functions given to `map` that have side effects; a constant is both a `ConstantGenerator` and a
  `ConstantDependentGenerator` (the wrong call raises `TypeError` in the code); bulk generators used as timers;
* chains of operations are kept outside of the `World`: no modelled code changes a chain during a run.

## 2. Properties

The properties are in `properties.jsonl`, one line each, and are grouped in `Props` by the part of the code
they are about. How each is stated and proved:

| ids | files in `Props` | statement and method |
|----|----|----|
| C01-C03, C08 | `Util` | lookup characterisation of merges for every set order; fold of the values of a key; equality with an independent greedy specification of `cap_to_total`; both loops of `latest_date_before`, uniqueness by division |
| C04-C06 | `Ids` | injectivity and order of padded decimals; state machine over histories of calls |
| C07 | `Msisdn` | remaining numbers as a multiset, histories of calls |
| C47, C50, C65, C68, C74, C75 | `Generators`, `GeneratorSizes`, `Quantities`, `Observations`, `Seeds` | state machines over arbitrary histories of calls |
| C09-C15, C73 | `Clock` | exact arithmetic; invariant "cdf = cumulative sums of the rotated weights"; searches in a cdf; composition with the reset and tick of stories |
| C16-C29 | `Relationship`, `Selection`, `SelectMany`, `Repeatable` | abstraction to the multiset of (from, to, weight) triples; every draw, permutation, tie and set order; histories |
| C30-C41 | `Story`, `StoryHistory`, `StoryStates` | one execution of a story with an arbitrary chain; histories of executions and of calls made by other stories |
| C42-C46 | `Chain`, `Operations`, `Logger` | chains as state transformers; invariants over the class of built-in operations |
| C48, C49 | `Functions` | order properties over the rationals |
| C51-C57 | `Population`, `Lookup`, `Weights` | tables of attributes, histories of updates |
| C58-C62 | `Circus`, `Run`, `FileSystem` | names; run loop over arbitrary chains; log files; deleted trees, by induction on the tree |
| C63, C64, C66, C67 | `Csv`, `Persistence`, `Db` | character level round trip; saved and reloaded relationships and circuses |
| C79-C81 | `Derived`, `GeneratorSizes` | induction on the expression of a derived generator; histories of calls on shared generators |
| C82-C83 | `Fields` | induction on sequences of operations with the fields, generators and log ids they are given; invariants of runs |
| C84-C85 | `Hash` | two processes side by side: a relation between their circuses, kept by every operation, execution and run; commutation of draws on disjoint generators |
| C86-C89 | `Chance` | the random numbers themselves are unmodelled: a value has probability `p` when it is drawn for the numbers of an interval of length `p`; the picks are read off the searches in cumulated weights |
| C90 | `StoryStates` | induction over the states of the new story, with the list of the numbers drawn |
| C91 | `Columns` | merge of a frame with the same index; the values traced back to the generator call |
| C92 | `SelectOps`, `SelectWeights` | the properties of the methods (C19-C26) carried to the rows of story data by their index |
| C93 | `RelationOps` | C16 carried to the rows of story data; `remove` refuted |
| C94 | `StoryOps` | the members named by the rows characterised, then C32, C40 and the law of resets |
| C95 | `Dataframe` | induction over attributes; round trip with C55 |
| C96 | `Journal` | kept fields along the chain (C82) from the timestamp to the logger, then induction over the events of a run and C60 for the files |
| C97 | `Trigger` | potential argument over the executions of a run: actions done plus actions pending; instance for `uganda.py` |
| C98, C99 | `Empirical` | files and CSV as in C66; case analysis of the checks of numpy; induction over the loop that loads the generators |
| C100 | `Stock` | C92, C93 and the fields kept (C82) give what one move does to each stock; the sums over the stocks by counting; induction over the operations of a story and over the executions of a run |
| C101 | `Typed` | a specification of kinds of columns and of well-formed circuses (`Spec/Typed`); each operation is shown to succeed and to keep the circus well-formed; induction over chains, executions and steps, with the log files of C60 |
| C52, C53, C55, C58 | `Creation` | the objects that the constructors of populations and attributes give |
| C102 | `Logistic` | real analysis of the exponential |
| C103 | `Faker` | histories of constructions and calls on one shared stream |
| C104 | `Ledger` | counts over stock and logs: held + sold against held at the start + delivered |
| C105 | `Snd` | the assertion of the test, for all parameters, draws and runs |
| C106 | `SndSims` | the multiset of all SIMs, as an invariant of the six stories |
| C107 | `Batches` | draws of `n + m` against draws of `n`, then `m`; the numpy streams are a hypothesis (`Spec.Streams`) |
| C108 | `Values` | the values a generator can give only shrink, through all calls of a run |
| C109 | `Hours` | invariant on the dates to which the timers lead; calendar of the profilers, also for C69 |
| C110-C114 | `Cdr` | what one execution of each story does, then induction on the run; the specification reads logs, attributes and stocks only |
| C115 | `CdrBuild`, `CdrExample` | the constructor, step by step, and C110-C112 for the runs from what it builds; a run computed by the kernel |
| C116 | `CdrStatus`, `CdrTrigger`, `Replies` | `Spec/CdrStatus`, `Spec/Object`: the reference of the operation is to an object that was the trigger of the constructor, whatever it drew since; from one execution to runs, and to the runs of the built circus |
| C117 | `CdrTrigger`, `CdrExample` | `Spec/CdrTrigger`: counts of records and timers; per execution of each of the stories, then by induction on runs `top-ups + due ≤ talks + due at the start` |
| C118-C120 | `Shop` | `Spec/Shop`: the level of a stock as the sum of what the logs tell; what one execution of each story of steps 4 and 5 does, then induction on the run |
| C121 | `ShopTrigger` | `Spec/Shop`, `Spec/CdrTrigger`: counts of records, timers and levels; per execution, then by induction on runs |
| C122 | `ShopBuild` | what each function of the example adds to populations, relationships, generators and stories; C118-C121 from there on; a run of step 5 computed as an example |
| C123 | `Health`, `HealthExample` | `Spec/Health`: the levels that the log tells of a cell; one execution of each of the six stories, then runs by induction; the built circus through `Opening.levels`; a run where a cell breaks down and is repaired computed as an example |
| C124 | `Periodic`, `Reports` | `Spec/Periodic`: the dates of the executions of a story, every n-th of them, who and when a log tells; timers by induction on the run; `Spec/Reports`: the six steps of the tutorial and the dates of their reports; through `C60_logs` to what is in the files |
| C125 | `ShopEarly` | `Spec/ShopEarly`: the three ways to restock, the world where these stories can be played, totals of volumes; one lemma per story about what it adds to the stocks, induction on the run; the steps built from `Circus.new` |
| C126 | `Music` | `Spec/Music`: what a record tells, the catalogue of the songs, the world where the stories can be played; one lemma per operation that adds columns, none of which changes the populations or the relationship; induction on the run and on the genres; the steps built from `Circus.new` |
| C127 | `Hello` | `Spec/Hello`: the fields of each step, what a record tells, the world where the story can be played, who speaks; one lemma per operation on the columns; C22 and C124; the steps built from `Circus.new` with the weights of the relations followed by C16 |
| C128 | `Namespace` | the views of the files of C62 and C66; `NamespaceOnly` (C67) applied to the folders of the populations and of the generators apart |
| C129 | `Describe` | `Spec/Describe`: what a document tells along a path of keys; induction over the entries for what `json` refuses |
| C130 | `SndRetry` | `Spec/SndRetry`: members with a failed line, members with a new timer; `execute_ok` with the marks of C94, and invariance of the timers of the purchases under the five other stories |
| C131 | `Blog` | `Spec/Blog`: what a record tells, the world where the story can be played, who writes, the quotes and the friends given; one lemma per operation on the columns; C124 for the examples 3 and 4; the examples built from `Circus.new` as in C127, the content of the relations being followed; the values of the generators followed from the build to the records (`Given`) |
| C132 | `HelloRuns`, `ShopRuns`, `MusicRuns`, `BlogRuns` | the signature (C101) of the circus that each script builds: a generator may become whatever descends from what it was when built (`Proofs/Kinds`), a new story has all its members in the default state (`Spec/Begins`); the operations are safe for it; C101_run |
| C133 | `DbPopulation` | the views of the files of C66, for one folder; the tree is kept (`Proofs/DbPopulation`) |
| C134 | `MusicDb` | the two populations as in C126, built in a world without circus (`Proofs/MusicDb`); C133 twice in one namespace; C66; what a catalogue tells only depends on what `SamePopulation` keeps; `C134_runs` as C132, the relationships of the loaded circus being those that were saved |
| C135 | `Slides` | `Spec/Slides`: what a record of each script tells, a value that a generator may give (`MayGive`); the story data column by column (`Proofs/SlidesRun`); the scripts built from `Circus.new` as in C131 (`Proofs/SlidesBuild`); the values of the generators followed from the build to the records (`Given`) |
| C136 | `SlidesRuns` | the signature (C101) of the circus that each script builds, as in C132 |
| C137 | `ExampleBuilds` | success of an action as existence of its result (`Builds.Ends`, `Proofs/Builds`); the generators only through the values that they give (`AlwaysGives`, `AlwaysAnswers`, C101) |
| C138 | `HelloBuilds` | as C137; the sites and the friends as the edges of a given bipartite graph (`Builds.Friendly`) |
| C139 | `MusicBuilds` | as C137; the attributes of the songs through the columns of the story data (`Typed`, C101) and `C55_update` |
| C140 | `ShopBuilds` | as C137; then C132 |
| C141 | `SndRuns` (hypotheses in `Spec/SndSound`) | what each step of the constructor leaves (`Stage`, `Grows`); the circus that is built is well-formed (`Fits`); each story keeps it so and populations well-formed, the restock and bulk purchases with kinds that depend on the row; induction on executions, then on the steps of the run |
| C142 | `SndBuilds` (hypotheses in `Spec/SndSound`, `Spec/SndSupplied`) | one lemma per step of the constructor that it does not raise (`Ends`), in the state that the steps before leave (`Stage`); as many ids as the size of each population; a story that declares states, for any order of the merged dictionary; then C141 |
| C143 | `Firsts` | `Spec/Firsts`: what the table shows (`Shows`), what a run without stories leaves (`Idle`); C95 for the table; the origin of the values of a drawn attribute (`MayGive`); induction on the steps of a run without stories; C135 and C101 for the log |
| C78 | `Logs` | composition of C60, C63 and of the type inference of columns |
| C69-C72, C76, C77 | `Components`, `Networks` | profiles; graphs; stocks; assignments and proportions |

## 3. Findings: disagreements between the code and the intended properties

Each false property has a counterexample theorem about the model (a concrete witness) beside the theorem
that does hold, whose name ends in `_partial`. The most useful findings, in the order of the code:

**Clock and timers**
* C13: building a `CyclicTimerGenerator` never ends when the clock is past the last label of the profile
  (clock.py:181-184): the loop rotates the profile, whose first label never reaches the current date.
* C15: a timer drawn in the current bin makes the member act one step later, even if that bin has weight
  zero (the correction of clock.py:263 floors at 0); initial timers act one step early.
* Random timestamps raise when the clock step is shorter than a second (C10).
* `latest_date_before` does not end for a time step <= 0.

**Relationships**
* C18: `remove_relations` on a from without relation *adds* the listed pairs, with weight 0
  (relationship.py:179-189). Froms whose relations are all removed stay with an empty list.
* `RelationshipOps.Remove` calls a method that does not exist (relationship.py:692): AttributeError on any
  non-empty story data.
* C26: `select_many` with `remove_selected` only removes the picks of the first request of each from
  (relationship.py:428-432): the other items can be handed out again.
* `select_one` with `remove_selected` but not `one_to_one` can hand out the same relation twice in a call.
* A relation of weight 0 is picked when it is the only one of its from; weights summing to 0 raise.
* `get_relations`, `select_one(None)` and the dictionaries returned by `merge_2_dicts` follow the iteration
  order of sets, hence `PYTHONHASHSEED`.

**Stories**
* C38: a member whose timer is set to 0 by a reset made by its own story, in an execution in which it does
  not act, is ticked to -1 at the end of that execution, and never acts again.
* `get_param` ignores the state of the members when the story has only the default state, and raises KeyError
  for an unknown state otherwise.
* C85: the parameters of a new story are drawn state by state, in the order of a set: when two states share a
  generator, the drawn values depend on `PYTHONHASHSEED`, although everything is seeded.
* Back-to-default transitions only concern the members still in the story data at the end of the chain;
  operations added by `append_operations` run after them.

**Operations**
* `DropRow` drops the rows whose condition is true; its documentation says the contrary. `copy_if` takes the
  condition first; its documentation has the other order.
* C45: `FieldLogger` with exploded columns raises ValueError on empty story data, and KeyError when no row
  holds any element; it extends the list of columns of its caller.
* Adding a column whose name exists renames both columns (`_x`, `_y`).

**Populations and attributes**
* C52: `Population.update` adds members without updating `size`; later attributes and stories then raise.
* C57: `Attribute.update` sorts the table while the ids keep their order, so that weighted selections use the
  weights of other members. The weights are those at the creation of the operation.
* C58: `create_relationship` compares the name with the dictionary itself: an existing relationship is
  silently replaced. `create_attribute` and `load_population` replace too. A seed of 0 counts as no seed.
* `Attribute.update` with a duplicated id and `Attribute.add` with an unknown id raise.
* An attribute made from a relationship only has the members that have relations; `to_dataframe` then raises
  KeyError (C95).
* C93: the operation `remove` of relationships calls `Relationship.remove`, which does not exist: it raises
  AttributeError on any non-empty story data.

**Networks and geographies**
* The two directions of an edge of an Erdős–Rényi network get different weights. An empty population raises
  ZeroDivisionError. `make_random_bipartite_data` raises ValueError when `p > 0` but no edge is drawn.
* The two level generators of `uganda.py` have the same law (uganda.py:16-21): break-downs do not lower the
  health of cells, contrary to the comments.
* `add_uganda_geography()` without `force_build`, and the script of `uganda.py`, call functions without their
  `circus` argument: TypeError. `WithRandomGeo.create_random_cells` builds a `Population` without `circus`.
* `assign_random_proportions` leaves out the members whose draws are all 0.

**Generators**
* C80: a negative size moves the counter of a `SequencialGenerator` back. A bulk generator passes the sizes it
  is given on unchecked, so that one negative size (a normal law can draw it) makes ids repeat.
* C79: `flatmap` fails with all dependent generators that are neither bulk generators nor triggers, because
  the samples are never a Series; with triggers it fails unless the parent returns a numpy array.

**Logs and files**
* C78: phone numbers and other texts made of digits, logged in a column of their own, become numbers when the
  logs are loaded by `load_all_logs`: leading zeros are lost, and different texts become equal.
* C60: tables of different columns logged under one id are appended under the header of the first one.
* C63: carriage returns are not quoted, NUL cuts a cell, a blank cell alone in its line is lost, and a leading
  byte order mark is dropped.

**Persistence**
* C64: ids made of digits come back as numbers, numbers mixed with texts as texts, texts such as `null` as
  missing values; a relationship without relation cannot be loaded.
* C65: `NumpyRandomGenerator.load_from` restores the state in an object that is not the one the values are
  drawn from: a loaded generator restarts from the seed 1234.
* C66: a circus without population cannot be loaded; generator ids are cut at their first dot; generators
  without `save_to` raise after the populations are written; random geography components call
  `db.load_population` without its `circus` argument.
* C100: `select_one(pop=True)` without `one_to_one` can hand one stored item to several rows with the same
  giver, and pops it once: `add` then duplicates it (`C100_duplicated_without_one_to_one`). With the default
  `discard_empty=False`, rows without item bring an empty item to the stock of the taker
  (`C100_empty_item_without_discard`).
* C101: `attribute.ops.update` raises when two rows name the same member (`ops.add` does not); a transit to a
  state that the story does not have goes unnoticed until a later reset of the timers raises; an operation that
  adds a column of an existing name renames both, and raises only when that name is read.
* C98: `save_empirical_discrete_generator` only refuses totals above 1: smaller ones are saved and loaded, and
  every draw raises ValueError.
* C99: `save_empirical_discrete_generator` and `save_timer_gen` write in the folder of the generators, whose
  content `load_from_db` takes for types of generators: the circus of this namespace cannot be loaded any more.
* C128: `save_to_db(overwrite=True)` removes the whole folder of the circus, so that the parameters that
  `save_params_to_db` put there "for future reference" are lost without a warning.
* C129: `Population.description` returns `dict_keys` objects, which `json.dumps` refuses: `str(circus)` raises
  `TypeError` for any circus that has a population.
* C102: `logistic` caps the exponent at 10 (the sigmoid never gets below `L / (1 + e^10)`), which its
  documentation does not say.
* C103: `FakerGenerator` seeds the class `Faker`, that is one stream shared by all generators: constructing a
  second generator rewinds the first, and two generators with the same seed repeat each other.
* C105: `connect_agent_to_dealer` of the SND scenario raises ValueError when the graph drawn has no edge.
* C106: in the SND scenario, dealers of one distributor that buy in the same step can be sold the same SIMs, which
  are popped once (`C106_counterexample`): one SIM is then sold to several agents. The cause is C26.
* C107: the phone numbers of an `MSISDNGenerator`, and the timers of a `CyclicTimerGenerator` with activities above
  2, depend on how the calls are cut (`C107_msisdn_counterexample`, `C107_cyclic_counterexample`).
* C109: with `WorkHoursTimerGenerator` (9 to 17, one hour per step), members act at 18 as well, and first at 8, whose
  weights are 0 (`C109_counterexample`): this is the consequence, over whole runs, of the two remarks on C15.
* C111: a dropped call is logged with its full duration and value, and charged (`exRun` of `CdrExample`): the status
  is not used by `compute_call_value`. Nothing keeps accounts above 0.
* C113: a subscriber for which no possible cell was drawn has no `CELL`: the lookup of a move or of a call of this
  subscriber raises KeyError.
* The CDR scenario: `HEALTH` is drawn from `beta(1, 999)`, whose mean is 1/1000, where the comment announces one
  failure per 1000 calls; the healthy and the unhealthy level have the same parameters, so that repairs do nothing
  on average (uganda.py:43-49, 140). The parameter `n_cells` is not used.
* `examples/tutorial/example2.py`: the field `POS_NAME` is the attribute `NAME` of the point of sale in the log of
  restocks, and its attribute `COMPANY` in the log of purchases (lines 127, 259 and 321; `C119_restocks`,
  `C120_purchases`).
* `create_random_cells` (random_geo.py:11-24) calls `Population` without its `circus` argument: it always raises
  TypeError. The `__main__` of uganda.py calls `build_uganda_populations` without its argument.
* `save_to_db(overwrite=True)` deletes the previous namespace before it writes the new one.

## 4. Axioms per theorem

Every property theorem was checked with `#print axioms` (`tools/axioms.py` regenerates the table).

<!-- axioms -->

| theorem | in `Props` | axioms |
|---|---|---|
| `C01_merge_2_dicts_conflict` | `Util` | Classical.choice, Quot.sound, propext |
| `C01_merge_2_dicts_none` | `Util` | none |
| `C01_merge_2_dicts_order_independent` | `Util` | Classical.choice, Quot.sound, propext |
| `C01_merge_2_dicts_union` | `Util` | Classical.choice, Quot.sound, propext |
| `C02_merge_dicts_fold` | `Util` | Classical.choice, Quot.sound, propext |
| `C03_cap_to_total` | `Util` | Classical.choice, Quot.sound, propext |
| `C03_cap_to_total_noop` | `Util` | Quot.sound, propext |
| `C04_sequential_ids_consecutive` | `Ids` | Classical.choice, Quot.sound, propext |
| `C04_sequential_ids_unique` | `Ids` | Classical.choice, Quot.sound, propext |
| `C05_no_collision_across_reload` | `Ids` | Classical.choice, Quot.sound, propext |
| `C05_reload_continues` | `Ids` | Classical.choice, Quot.sound, propext |
| `C06_ids_sorted` | `Ids` | Classical.choice, Quot.sound, propext |
| `C06_order_breaks_past_max_length` | `Ids` | Classical.choice, Quot.sound, propext |
| `C07_msisdn_capacity` | `Msisdn` | Classical.choice, Quot.sound, propext |
| `C07_msisdn_unique` | `Msisdn` | Classical.choice, Quot.sound, propext |
| `C08_latest_date_before` | `Clock` | Classical.choice, Quot.sound, propext |
| `C08_nonpositive_step_hangs` | `Clock` | Quot.sound, propext |
| `C09_n_iterations` | `Clock` | Classical.choice, Quot.sound, propext |
| `C09_zero_step` | `Clock` | Classical.choice, Quot.sound, propext |
| `C10_fixed_timestamps` | `Clock` | Classical.choice, Quot.sound, propext |
| `C10_random_timestamps` | `Clock` | Classical.choice, Quot.sound, propext |
| `C10_subsecond_step` | `Clock` | Classical.choice, Quot.sound, propext |
| `C11_clock_runs` | `Clock` | Classical.choice, Quot.sound, propext |
| `C12_cdf_of_rotated_weights` | `Clock` | Classical.choice, Quot.sound, propext |
| `C12_cdf_shape` | `Clock` | Classical.choice, Quot.sound, propext |
| `C12_full_cycle` | `Clock` | Classical.choice, Quot.sound, propext |
| `C13_construction_aligned_partial` | `Clock` | Classical.choice, Quot.sound, propext |
| `C13_construction_hangs` | `Clock` | Classical.choice, Quot.sound, propext |
| `C13_construction_on_grid` | `Clock` | Classical.choice, Quot.sound, propext |
| `C13_counterexample` | `Clock` | Classical.choice, Quot.sound, propext |
| `C14_cells` | `StoryHistory` | Classical.choice, Quot.sound, propext |
| `C14_generated_timers` | `Clock` | Classical.choice, Quot.sound, propext |
| `C14_nonpositive_activity` | `Clock` | Classical.choice, Quot.sound, propext |
| `C15_counterexample` | `Clock` | Classical.choice, Quot.sound, propext |
| `C15_positive_weight_bin_partial` | `Clock` | Classical.choice, Quot.sound, propext |
| `C15_reset_acts_in_bin` | `StoryHistory` | Classical.choice, Quot.sound, propext |
| `C16_additions_total` | `Relationship` | Classical.choice, Quot.sound, propext |
| `C16_content_of_additions` | `Relationship` | Classical.choice, Quot.sound, propext |
| `C16_step` | `Relationship` | Classical.choice, Quot.sound, propext |
| `C17_get_relations_some` | `Relationship` | Classical.choice, Quot.sound, propext |
| `C17_neighbourhood_size` | `Relationship` | Classical.choice, Quot.sound, propext |
| `C17_unique_tos` | `Relationship` | Classical.choice, Quot.sound, propext |
| `C18_remove_relations_effect` | `Relationship` | Classical.choice, Quot.sound, propext |
| `C18_remove_relations_partial` | `Relationship` | Classical.choice, Quot.sound, propext |
| `C18_unknown_from_counterexample` | `Relationship` | Classical.choice, Quot.sound, propext |
| `C19_select_one_none` | `Relationship` | Classical.choice, Quot.sound, propext |
| `C19_select_one_rows` | `Relationship` | Classical.choice, Quot.sound, propext |
| `C19_select_one_total` | `Relationship` | Classical.choice, Quot.sound, propext |
| `C20_one_to_one` | `Selection` | Classical.choice, Quot.sound, propext |
| `C21_emptied_from_disappears` | `Selection` | Classical.choice, Quot.sound, propext |
| `C21_pop_removes_returned` | `Selection` | Classical.choice, Quot.sound, propext |
| `C22_zero_weight_never_selected` | `Selection` | Classical.choice, Quot.sound, propext |
| `C23_no_override_no_assert` | `Selection` | Classical.choice, Quot.sound, propext |
| `C23_overridden_weights_cover_all_tos` | `Selection` | Classical.choice, Quot.sound, propext |
| `C24_select_many_quantities` | `SelectMany` | Classical.choice, Quot.sound, propext |
| `C25_select_many_labels` | `SelectMany` | Classical.choice, Quot.sound, propext |
| `C26_pop_effect` | `SelectMany` | Classical.choice, Quot.sound, propext |
| `C26_select_many_pop_partial` | `SelectMany` | Classical.choice, Quot.sound, propext |
| `C26_two_requests_counterexample` | `SelectMany` | Classical.choice, Quot.sound, propext |
| `C27_stock_conserved` | `Selection` | Classical.choice, Quot.sound, propext |
| `C28_select_all_horizontal` | `Selection` | Classical.choice, Quot.sound, propext |
| `C28_select_all_operation` | `Operations` | Classical.choice, Quot.sound, propext |
| `C29_seeded_session` | `Repeatable` | Classical.choice, Quot.sound, propext |
| `C29_sessions_repeatable` | `Repeatable` | Classical.choice, Quot.sound, propext |
| `C30_exactly_timer_zero_acts` | `Story` | Classical.choice, Quot.sound, propext |
| `C31_waiting_members_tick` | `Story` | Classical.choice, Quot.sound, propext |
| `C31_waiting_members_tick_calls` | `Story` | Classical.choice, Quot.sound, propext |
| `C32_force_sets_timer` | `StoryHistory` | Classical.choice, Quot.sound, propext |
| `C32_forced_acts_next` | `StoryHistory` | Classical.choice, Quot.sound, propext |
| `C32_forced_during_own_execution` | `StoryHistory` | Classical.choice, Quot.sound, propext |
| `C33_forcing_is_one_shot` | `Story` | Classical.choice, Quot.sound, propext |
| `C34_auto_reset_reschedules` | `Story` | Classical.choice, Quot.sound, propext |
| `C35_acts_once` | `Story` | Classical.choice, Quot.sound, propext |
| `C35_all_start_inactive` | `StoryHistory` | Classical.choice, Quot.sound, propext |
| `C36_negative_timer_never_acts` | `Story` | Classical.choice, Quot.sound, propext |
| `C36_timer_counts_executions` | `Story` | Classical.choice, Quot.sound, propext |
| `C37_auto_reset_of_inactive` | `StoryHistory` | Classical.choice, Quot.sound, propext |
| `C37_creation_of_inactive` | `StoryHistory` | Classical.choice, Quot.sound, propext |
| `C37_inactive_never_acts` | `StoryHistory` | Classical.choice, Quot.sound, propext |
| `C37_reset_of_inactive` | `StoryHistory` | Classical.choice, Quot.sound, propext |
| `C38_counterexample` | `StoryHistory` | Classical.choice, Quot.sound, propext |
| `C38_no_member_is_lost_partial` | `StoryHistory` | Classical.choice, Quot.sound, propext |
| `C39_at_the_end_of_the_operations` | `StoryStates` | Classical.choice, Quot.sound, propext |
| `C39_back_to_default` | `StoryStates` | Classical.choice, Quot.sound, propext |
| `C40_get_param` | `StoryStates` | Classical.choice, Quot.sound, propext |
| `C40_get_param_total` | `StoryStates` | Quot.sound, propext |
| `C40_transit_to_state` | `StoryStates` | Classical.choice, Quot.sound, propext |
| `C40_transit_to_state_total` | `StoryStates` | Classical.choice, Quot.sound, propext |
| `C41_default_not_redefinable` | `StoryStates` | Classical.choice, Quot.sound, propext |
| `C41_states_of_a_new_story` | `StoryStates` | Classical.choice, Quot.sound, propext |
| `C42_empty` | `Chain` | Quot.sound, propext |
| `C42_later_not_executed` | `Chain` | Classical.choice, Quot.sound, propext |
| `C42_nesting` | `Chain` | Classical.choice, Quot.sound, propext |
| `C42_raises` | `Chain` | Classical.choice, Quot.sound, propext |
| `C42_sequential` | `Chain` | Classical.choice, Quot.sound, propext |
| `C43_built_in` | `Operations` | Classical.choice, Quot.sound, propext |
| `C43_fields_kept` | `Operations` | Classical.choice, Quot.sound, propext |
| `C43_generate` | `Operations` | Classical.choice, Quot.sound, propext |
| `C43_generate_from_field` | `Operations` | Classical.choice, Quot.sound, propext |
| `C43_rows_kept` | `Operations` | Classical.choice, Quot.sound, propext |
| `C44_at_each_point` | `Operations` | Classical.choice, Quot.sound, propext |
| `C44_in_execution` | `Operations` | Classical.choice, Quot.sound, propext |
| `C44_loggers` | `Operations` | Quot.sound, propext |
| `C44_lookups` | `Operations` | Classical.choice, Quot.sound, propext |
| `C44_of_execute` | `Operations` | Classical.choice, Quot.sound, propext |
| `C44_one_operation` | `Operations` | Classical.choice, Quot.sound, propext |
| `C44_side_effects` | `Operations` | Classical.choice, Quot.sound, propext |
| `C45_all_columns` | `Logger` | propext |
| `C45_counterexample_empty` | `Logger` | propext |
| `C45_counterexample_no_element` | `Logger` | Quot.sound, propext |
| `C45_exploded_partial` | `Logger` | Quot.sound, propext |
| `C45_exploded_total` | `Logger` | Classical.choice, Quot.sound, propext |
| `C45_selected_columns` | `Logger` | Quot.sound, propext |
| `C45_selected_columns_total` | `Logger` | Classical.choice, Quot.sound, propext |
| `C46_drop_row` | `Operations` | Quot.sound, propext |
| `C46_total` | `Operations` | Classical.choice, Quot.sound, propext |
| `C47_bulk_values` | `Generators` | Quot.sound, propext |
| `C47_dependent_bulk` | `Generators` | Quot.sound, propext |
| `C47_dependent_bulk_counts` | `Generators` | Quot.sound, propext |
| `C47_operation` | `Quantities` | Classical.choice, Quot.sound, propext |
| `C48_bound_value_clamp` | `Functions` | Classical.choice, Quot.sound, propext |
| `C48_bound_value_inconsistent` | `Functions` | Classical.choice, Quot.sound, propext |
| `C48_bound_value_inside` | `Functions` | Classical.choice, Quot.sound, propext |
| `C48_bound_value_outside` | `Functions` | Classical.choice, Quot.sound, propext |
| `C49_bounded_sigmoid` | `Functions` | Classical.choice, Quot.sound, propext |
| `C50_trigger_certainties` | `Generators` | Classical.choice, Quot.sound, propext |
| `C50_trigger_total` | `Generators` | Quot.sound, propext |
| `C51_construction` | `Population` | Quot.sound, propext |
| `C51_history` | `Population` | Classical.choice, Quot.sound, propext |
| `C51_in_execution` | `Population` | Classical.choice, Quot.sound, propext |
| `C51_members_never_leave` | `Population` | Classical.choice, Quot.sound, propext |
| `C51_update` | `Population` | Classical.choice, Quot.sound, propext |
| `C52_counterexample` | `Population` | Classical.choice, Quot.sound, propext |
| `C52_sequential_population` | `Creation` | Classical.choice, Quot.sound, propext |
| `C52_size_partial` | `Population` | Classical.choice, Quot.sound, propext |
| `C53_created_from_relationship` | `Creation` | Classical.choice, Quot.sound, propext |
| `C53_created_values` | `Creation` | Quot.sound, propext |
| `C53_get_values` | `Population` | Quot.sound, propext |
| `C53_history` | `Population` | Classical.choice, Quot.sound, propext |
| `C53_operation` | `Population` | Classical.choice, Quot.sound, propext |
| `C53_transform` | `Creation` | Quot.sound, propext |
| `C53_unknown_id` | `Population` | Classical.choice, Quot.sound, propext |
| `C53_update` | `Population` | Classical.choice, Quot.sound, propext |
| `C53_update_duplicates` | `Population` | Classical.choice, Quot.sound, propext |
| `C53_wrong_number_of_values` | `Creation` | none |
| `C54_add` | `Population` | Classical.choice, Quot.sound, propext |
| `C54_add_subtract` | `Population` | Classical.choice, Quot.sound, propext |
| `C54_operation` | `Population` | Classical.choice, Quot.sound, propext |
| `C54_operations_cancel` | `Population` | Classical.choice, Quot.sound, propext |
| `C54_unknown_id` | `Population` | Classical.choice, Quot.sound, propext |
| `C55_members` | `Creation` | Classical.choice, Quot.sound, propext |
| `C55_operation` | `Population` | Classical.choice, Quot.sound, propext |
| `C55_operation_refused` | `Population` | Classical.choice, Quot.sound, propext |
| `C55_refused` | `Population` | Classical.choice, Quot.sound, propext |
| `C55_update` | `Population` | Classical.choice, Quot.sound, propext |
| `C56_lookup` | `Lookup` | Classical.choice, Quot.sound, propext |
| `C56_unknown_id` | `Lookup` | Classical.choice, Quot.sound, propext |
| `C56_unknown_id_in_list` | `Lookup` | Classical.choice, Quot.sound, propext |
| `C57_counterexample` | `Weights` | Classical.choice, Quot.sound, propext |
| `C57_history_partial` | `Weights` | Classical.choice, Quot.sound, propext |
| `C57_own_weight_partial` | `Weights` | Classical.choice, Quot.sound, propext |
| `C57_selects` | `Weights` | Classical.choice, Quot.sound, propext |
| `C58_generator_refused` | `Circus` | propext |
| `C58_names_kept_partial` | `Circus` | Classical.choice, Quot.sound, propext |
| `C58_population_created` | `Circus` | Classical.choice, Quot.sound, propext |
| `C58_population_loaded` | `Creation` | Quot.sound, propext |
| `C58_population_refused` | `Circus` | Classical.choice, Quot.sound, propext |
| `C58_relationship_counterexample` | `Circus` | Classical.choice, Quot.sound, propext |
| `C58_story_refused` | `Circus` | Classical.choice, Quot.sound, propext |
| `C59_builtIn_keepsDate` | `Run` | Classical.choice, Quot.sound, propext |
| `C59_run` | `Run` | Classical.choice, Quot.sound, propext |
| `C60_counterexample_columns` | `Run` | Classical.choice, Quot.sound, propext |
| `C60_file` | `Run` | Classical.choice, Quot.sound, propext |
| `C60_logs` | `Run` | Classical.choice, Quot.sound, propext |
| `C60_read_back_partial` | `Run` | Classical.choice, Quot.sound, propext |
| `C61_delete` | `Run` | Classical.choice, Quot.sound, propext |
| `C61_outside` | `Run` | Classical.choice, Quot.sound, propext |
| `C61_refused` | `Run` | Classical.choice, Quot.sound, propext |
| `C62_deletes_one_tree` | `FileSystem` | Classical.choice, Quot.sound, propext |
| `C62_idempotent` | `FileSystem` | Classical.choice, Quot.sound, propext |
| `C62_terminates` | `FileSystem` | Quot.sound, propext |
| `C63_counterexample_blank` | `Csv` | Classical.choice, Quot.sound, propext |
| `C63_counterexample_cr` | `Csv` | Classical.choice, Quot.sound, propext |
| `C63_counterexample_cr_split` | `Csv` | Classical.choice, Quot.sound, propext |
| `C63_counterexample_nul` | `Csv` | Classical.choice, Quot.sound, propext |
| `C63_injective_partial` | `Csv` | Quot.sound, propext |
| `C63_roundtrip_partial` | `Csv` | Quot.sound, propext |
| `C64_counterexample_digits` | `Persistence` | Classical.choice, Quot.sound, propext |
| `C64_counterexample_empty` | `Persistence` | Classical.choice, Quot.sound, propext |
| `C64_counterexample_mixed` | `Persistence` | Classical.choice, Quot.sound, propext |
| `C64_counterexample_na` | `Persistence` | Classical.choice, Quot.sound, propext |
| `C64_reloaded_partial` | `Persistence` | Classical.choice, Quot.sound, propext |
| `C65_reload_counterexample` | `Generators` | Classical.choice, Quot.sound, propext |
| `C65_reload_restarts_partial` | `Generators` | Classical.choice, Quot.sound, propext |
| `C65_save_is_faithful` | `Generators` | Quot.sound, propext |
| `C66_counterexample_constant` | `Db` | Classical.choice, Quot.sound, propext |
| `C66_counterexample_dot` | `Db` | Classical.choice, Quot.sound, propext |
| `C66_counterexample_no_population` | `Db` | Classical.choice, Quot.sound, propext |
| `C66_numpy_restarts_partial` | `Db` | Quot.sound, propext |
| `C66_restored_partial` | `Db` | Classical.choice, Quot.sound, propext |
| `C66_sequential_restored_partial` | `Db` | Classical.choice, Quot.sound, propext |
| `C67_only_namespace` | `Db` | Classical.choice, Quot.sound, propext |
| `C67_refuses` | `Db` | Classical.choice, Quot.sound, propext |
| `C68_circus` | `Seeds` | Classical.choice, Quot.sound, propext |
| `C68_own_seed` | `Seeds` | Classical.choice, Quot.sound, propext |
| `C68_seeds` | `Generators` | Classical.choice, Quot.sound, propext |
| `C68_used_in_order` | `Seeds` | Classical.choice, Quot.sound, propext |
| `C69_daily_calendar` | `Hours` | Classical.choice, Quot.sound, propext |
| `C69_week_days_calendar` | `Hours` | Classical.choice, Quot.sound, propext |
| `C69_work_hours` | `Components` | Classical.choice, Quot.sound, propext |
| `C69_work_hours_calendar` | `Hours` | Classical.choice, Quot.sound, propext |
| `C69_work_hours_rejected` | `Components` | Classical.choice, Quot.sound, propext |
| `C70_links` | `Networks` | Classical.choice, Quot.sound, propext |
| `C70_symmetric` | `Networks` | Classical.choice, Quot.sound, propext |
| `C70_total` | `Networks` | Classical.choice, Quot.sound, propext |
| `C71_count` | `Networks` | Classical.choice, Quot.sound, propext |
| `C71_count_library` | `GeneratorSizes` | Classical.choice, Quot.sound, propext |
| `C71_grouped` | `Networks` | Classical.choice, Quot.sound, propext |
| `C71_stock` | `Networks` | Classical.choice, Quot.sound, propext |
| `C71_total` | `Networks` | Classical.choice, Quot.sound, propext |
| `C72_bipartite` | `Components` | Classical.choice, Quot.sound, propext |
| `C72_bipartite_empty` | `Components` | Quot.sound, propext |
| `C72_bipartite_total` | `Components` | Quot.sound, propext |
| `C73_activity` | `Clock` | Classical.choice, Quot.sound, propext |
| `C73_activity_per_cycle` | `Clock` | Classical.choice, Quot.sound, propext |
| `C73_activity_zero` | `Clock` | Classical.choice, Quot.sound, propext |
| `C74_as_many_as_asked` | `GeneratorSizes` | Classical.choice, Quot.sound, propext |
| `C75_in_circus` | `Observations` | Classical.choice, Quot.sound, propext |
| `C75_one_per_observation` | `GeneratorSizes` | Classical.choice, Quot.sound, propext |
| `C76_random_assign` | `GeneratorSizes` | Quot.sound, propext |
| `C77_proportions` | `GeneratorSizes` | Classical.choice, Quot.sound, propext |
| `C78_column_names` | `Logs` | Quot.sound, propext |
| `C78_counterexample` | `Logs` | Classical.choice, Quot.sound, propext |
| `C78_ids` | `Logs` | Classical.choice, Quot.sound, propext |
| `C78_load_all_logs_partial` | `Logs` | Classical.choice, Quot.sound, propext |
| `C79_derived_counts` | `GeneratorSizes` | Classical.choice, Quot.sound, propext |
| `C79_flatmap_bulk` | `Derived` | Classical.choice, Quot.sound, propext |
| `C79_flatmap_refused` | `Derived` | Classical.choice, Quot.sound, propext |
| `C79_map` | `Derived` | Classical.choice, Quot.sound, propext |
| `C79_map_arguments` | `Derived` | Quot.sound, propext |
| `C79_trigger_needs_array` | `Derived` | Classical.choice, Quot.sound, propext |
| `C80_negative_size_repeats` | `Derived` | Classical.choice, Quot.sound, propext |
| `C80_shared_ids` | `Derived` | Classical.choice, Quot.sound, propext |
| `C81_stock_of_ids` | `Derived` | Classical.choice, Quot.sound, propext |
| `C82_field_kept` | `Fields` | Classical.choice, Quot.sound, propext |
| `C82_field_logged` | `Fields` | Classical.choice, Quot.sound, propext |
| `C82_generator_kept` | `Fields` | Classical.choice, Quot.sound, propext |
| `C82_log_ids` | `Fields` | Classical.choice, Quot.sound, propext |
| `C83_unique_ids` | `Fields` | Classical.choice, Quot.sound, propext |
| `C83_unique_in_the_file` | `Fields` | Classical.choice, Quot.sound, propext |
| `C84_execute` | `Hash` | Classical.choice, Quot.sound, propext |
| `C84_operation` | `Hash` | Classical.choice, Quot.sound, propext |
| `C84_played` | `Hash` | Classical.choice, Quot.sound, propext |
| `C84_run` | `Hash` | Classical.choice, Quot.sound, propext |
| `C85_counterexample_shared` | `Hash` | Classical.choice, Quot.sound, propext |
| `C85_create_story_partial` | `Hash` | Classical.choice, Quot.sound, propext |
| `C85_refused_partial` | `Hash` | Classical.choice, Quot.sound, propext |
| `C86_probability` | `Chance` | Classical.choice, Quot.sound, propext |
| `C86_select_one` | `Chance` | Classical.choice, Quot.sound, propext |
| `C87_back_to_default` | `Chance` | Classical.choice, Quot.sound, propext |
| `C88_choice` | `Chance` | Classical.choice, Quot.sound, propext |
| `C88_trigger` | `Chance` | Quot.sound, propext |
| `C89_probability` | `Chance` | Classical.choice, Quot.sound, propext |
| `C89_timers` | `Chance` | Classical.choice, Quot.sound, propext |
| `C90_parameters_of_a_new_story` | `StoryStates` | Classical.choice, Quot.sound, propext |
| `C91_apply_frame` | `Columns` | Classical.choice, Quot.sound, propext |
| `C91_apply_series` | `Columns` | Classical.choice, Quot.sound, propext |
| `C91_bulk_values` | `Columns` | Classical.choice, Quot.sound, propext |
| `C91_copy_if` | `Columns` | Classical.choice, Quot.sound, propext |
| `C91_fixed_timestamps` | `Columns` | Classical.choice, Quot.sound, propext |
| `C91_neighbourhood_size` | `Columns` | Classical.choice, Quot.sound, propext |
| `C91_random_timestamps` | `Columns` | Classical.choice, Quot.sound, propext |
| `C91_random_values` | `Columns` | Classical.choice, Quot.sound, propext |
| `C91_random_values_from_field` | `Columns` | Classical.choice, Quot.sound, propext |
| `C92_select_many` | `SelectOps` | Classical.choice, Quot.sound, propext |
| `C92_select_one` | `SelectOps` | Classical.choice, Quot.sound, propext |
| `C92_zero_weight` | `SelectWeights` | Classical.choice, Quot.sound, propext |
| `C93_add` | `RelationOps` | Classical.choice, Quot.sound, propext |
| `C93_add_grouped` | `RelationOps` | Classical.choice, Quot.sound, propext |
| `C93_additions_succeed` | `RelationOps` | Classical.choice, Quot.sound, propext |
| `C93_remove_counterexample` | `RelationOps` | Classical.choice, Quot.sound, propext |
| `C93_remove_partial` | `RelationOps` | Quot.sound, propext |
| `C94_force_act_next` | `StoryOps` | Classical.choice, Quot.sound, propext |
| `C94_reset_timers` | `StoryOps` | Classical.choice, Quot.sound, propext |
| `C94_transit_arguments` | `StoryOps` | Quot.sound, propext |
| `C94_transit_to_state` | `StoryOps` | Classical.choice, Quot.sound, propext |
| `C95_missing_value` | `Dataframe` | Classical.choice, Quot.sound, propext |
| `C95_round_trip` | `Dataframe` | Classical.choice, Quot.sound, propext |
| `C95_to_dataframe` | `Dataframe` | Quot.sound, propext |
| `C96_chronological` | `Journal` | Classical.choice, Quot.sound, propext |
| `C96_execution` | `Journal` | Classical.choice, Quot.sound, propext |
| `C96_in_a_run` | `Journal` | Classical.choice, Quot.sound, propext |
| `C96_in_the_file` | `Journal` | Classical.choice, Quot.sound, propext |
| `C97_in_a_run` | `Trigger` | Classical.choice, Quot.sound, propext |
| `C97_no_action_without_trigger` | `Trigger` | Classical.choice, Quot.sound, propext |
| `C97_repairs_follow_breakdowns` | `Trigger` | Classical.choice, Quot.sound, propext |
| `C97_trigger_schedules` | `Trigger` | Classical.choice, Quot.sound, propext |
| `C98_draws_iff` | `Empirical` | Classical.choice, Quot.sound, propext |
| `C98_draws_saved_values` | `Empirical` | Classical.choice, Quot.sound, propext |
| `C98_lengths_refused` | `Empirical` | Classical.choice, Quot.sound, propext |
| `C98_saved_distribution_restored` | `Empirical` | Classical.choice, Quot.sound, propext |
| `C98_too_large_refused` | `Empirical` | Classical.choice, Quot.sound, propext |
| `C99_after_saving_a_distribution` | `Empirical` | Classical.choice, Quot.sound, propext |
| `C99_other_generators_not_loaded` | `Empirical` | Classical.choice, Quot.sound, propext |
| `C99_refused_type_not_loaded` | `Empirical` | Classical.choice, Quot.sound, propext |
| `C100_bulks_change_hands` | `Stock` | Classical.choice, Quot.sound, propext |
| `C100_duplicated_without_one_to_one` | `Stock` | Classical.choice, Quot.sound, propext |
| `C100_empty_item_without_discard` | `Stock` | Classical.choice, Quot.sound, propext |
| `C100_items_change_hands` | `Stock` | Classical.choice, Quot.sound, propext |
| `C100_lost_by_dropped_rows` | `Stock` | Classical.choice, Quot.sound, propext |
| `C100_played` | `Stock` | Classical.choice, Quot.sound, propext |
| `C100_run_conserves` | `Stock` | Classical.choice, Quot.sound, propext |
| `C100_story_conserves` | `Stock` | Classical.choice, Quot.sound, propext |
| `C101_choice` | `Typed` | Classical.choice, Quot.sound, propext |
| `C101_cyclic_timer` | `Typed` | Classical.choice, Quot.sound, propext |
| `C101_run` | `Typed` | Classical.choice, Quot.sound, propext |
| `C101_safe_operation` | `Typed` | Classical.choice, Quot.sound, propext |
| `C101_same_column_raises` | `Typed` | Classical.choice, Quot.sound, propext |
| `C101_sequence` | `Typed` | Classical.choice, Quot.sound, propext |
| `C101_set_operations` | `Typed` | Classical.choice, Quot.sound, propext |
| `C101_story` | `Typed` | Classical.choice, Quot.sound, propext |
| `C101_trigger` | `Typed` | Classical.choice, Quot.sound, propext |
| `C101_uniform` | `Typed` | Classical.choice, Quot.sound, propext |
| `C101_unknown_state_raises_later` | `Typed` | Classical.choice, Quot.sound, propext |
| `C101_update_of_same_member_raises` | `Typed` | Classical.choice, Quot.sound, propext |
| `C102_documented_curve` | `Logistic` | Classical.choice, Quot.sound, propext |
| `C102_floor` | `Logistic` | Classical.choice, Quot.sound, propext |
| `C102_monotone` | `Logistic` | Classical.choice, Quot.sound, propext |
| `C102_range` | `Logistic` | Classical.choice, Quot.sound, propext |
| `C103_counterexample` | `Faker` | Classical.choice, Quot.sound, propext |
| `C103_one_stream` | `Faker` | Quot.sound, propext |
| `C103_repeatable_partial` | `Faker` | Quot.sound, propext |
| `C103_second_generator_rewinds` | `Faker` | Quot.sound, propext |
| `C103_sizes` | `Faker` | Quot.sound, propext |
| `C104_delivery` | `Ledger` | Classical.choice, Quot.sound, propext |
| `C104_exact_account` | `Ledger` | Classical.choice, Quot.sound, propext |
| `C104_execution` | `Ledger` | Classical.choice, Quot.sound, propext |
| `C104_never_oversold` | `Ledger` | Classical.choice, Quot.sound, propext |
| `C104_oversold_without_one_to_one` | `Ledger` | Classical.choice, Quot.sound, propext |
| `C104_sale` | `Ledger` | Classical.choice, Quot.sound, propext |
| `C104_stranger` | `Ledger` | Classical.choice, Quot.sound, propext |
| `C105_at_most_three` | `Snd` | Classical.choice, Quot.sound, propext |
| `C105_broke_dealer` | `Snd` | Classical.choice, Quot.sound, propext |
| `C105_dealer_ids` | `Snd` | Classical.choice, Quot.sound, propext |
| `C105_run` | `Snd` | Classical.choice, Quot.sound, propext |
| `C106_counterexample` | `SndSims` | Classical.choice, Quot.sound, propext |
| `C106_dealer_ids` | `SndSims` | Classical.choice, Quot.sound, propext |
| `C106_held_once_partial` | `SndSims` | Classical.choice, Quot.sound, propext |
| `C106_sims_partial` | `SndSims` | Classical.choice, Quot.sound, propext |
| `C106_sizes` | `SndSims` | Classical.choice, Quot.sound, propext |
| `C107_batches` | `Batches` | Classical.choice, Quot.sound, propext |
| `C107_bulk` | `Batches` | Classical.choice, Quot.sound, propext |
| `C107_cyclic_counterexample` | `Batches` | Classical.choice, Quot.sound, propext |
| `C107_in_circus` | `Batches` | Classical.choice, Quot.sound, propext |
| `C107_msisdn` | `Batches` | Classical.choice, Quot.sound, propext |
| `C107_msisdn_counterexample` | `Batches` | Classical.choice, Quot.sound, propext |
| `C107_two_calls` | `Batches` | Classical.choice, Quot.sound, propext |
| `C107_two_observations` | `Batches` | Classical.choice, Quot.sound, propext |
| `C108_bounds` | `Values` | Classical.choice, Quot.sound, propext |
| `C108_call` | `Values` | Classical.choice, Quot.sound, propext |
| `C108_logged_values` | `Values` | Classical.choice, Quot.sound, propext |
| `C109_active_hours` | `Hours` | Classical.choice, Quot.sound, propext |
| `C109_counterexample` | `Hours` | Classical.choice, Quot.sound, propext |
| `C109_logs` | `Hours` | Classical.choice, Quot.sound, propext |
| `C109_near` | `Hours` | Classical.choice, Quot.sound, propext |
| `C109_new_story` | `Hours` | Classical.choice, Quot.sound, propext |
| `C109_run` | `Hours` | Classical.choice, Quot.sound, propext |
| `C109_work_hours` | `Hours` | Classical.choice, Quot.sound, propext |
| `C110_execution` | `Cdr` | Classical.choice, Quot.sound, propext |
| `C110_ledger` | `Cdr` | Classical.choice, Quot.sound, propext |
| `C110_numbers_kept` | `Cdr` | Classical.choice, Quot.sound, propext |
| `C111_constant` | `Cdr` | Classical.choice, Quot.sound, propext |
| `C111_records` | `Cdr` | Classical.choice, Quot.sound, propext |
| `C111_run` | `Cdr` | Classical.choice, Quot.sound, propext |
| `C112_once_each` | `Cdr` | Classical.choice, Quot.sound, propext |
| `C113_execution` | `Cdr` | Classical.choice, Quot.sound, propext |
| `C113_journal` | `Cdr` | Classical.choice, Quot.sound, propext |
| `C114_topup` | `Cdr` | Classical.choice, Quot.sound, propext |
| `C115_balance` | `CdrBuild` | Classical.choice, Quot.sound, propext |
| `C115_built` | `CdrBuild` | Classical.choice, Quot.sound, propext |
| `C115_numbers_unique` | `CdrBuild` | Classical.choice, Quot.sound, propext |
| `C115_records` | `CdrBuild` | Classical.choice, Quot.sound, propext |
| `C116_built` | `CdrTrigger` | Classical.choice, Quot.sound, propext |
| `C116_certain` | `CdrStatus` | Classical.choice, Quot.sound, propext |
| `C116_run` | `CdrStatus` | Classical.choice, Quot.sound, propext |
| `C116_status` | `CdrStatus` | Classical.choice, Quot.sound, propext |
| `C117_built` | `CdrTrigger` | Classical.choice, Quot.sound, propext |
| `C117_certain` | `CdrTrigger` | Classical.choice, Quot.sound, propext |
| `C117_run` | `CdrTrigger` | Classical.choice, Quot.sound, propext |
| `C117_topup` | `CdrTrigger` | Classical.choice, Quot.sound, propext |
| `C117_trigger` | `CdrTrigger` | Classical.choice, Quot.sound, propext |
| `C118_level` | `Shop` | Classical.choice, Quot.sound, propext |
| `C118_reports` | `Shop` | Classical.choice, Quot.sound, propext |
| `C119_levels` | `Shop` | Classical.choice, Quot.sound, propext |
| `C119_restocks` | `Shop` | Classical.choice, Quot.sound, propext |
| `C120_bought` | `Shop` | Classical.choice, Quot.sound, propext |
| `C120_items` | `Shop` | Classical.choice, Quot.sound, propext |
| `C120_purchases` | `Shop` | Classical.choice, Quot.sound, propext |
| `C121_bound` | `ShopTrigger` | Classical.choice, Quot.sound, propext |
| `C121_certain` | `ShopTrigger` | Classical.choice, Quot.sound, propext |
| `C121_next` | `ShopTrigger` | Classical.choice, Quot.sound, propext |
| `C121_previous` | `ShopTrigger` | Classical.choice, Quot.sound, propext |
| `C121_restock` | `ShopTrigger` | Classical.choice, Quot.sound, propext |
| `C121_run` | `ShopTrigger` | Classical.choice, Quot.sound, propext |
| `C121_trigger` | `ShopTrigger` | Classical.choice, Quot.sound, propext |
| `C121_why` | `ShopTrigger` | Classical.choice, Quot.sound, propext |
| `C122_bound` | `ShopBuild` | Classical.choice, Quot.sound, propext |
| `C122_example` | `ShopBuild` | Classical.choice, Quot.sound, propext |
| `C122_reports` | `ShopBuild` | Classical.choice, Quot.sound, propext |
| `C122_step4` | `ShopBuild` | Classical.choice, Quot.sound, propext |
| `C122_step5` | `ShopBuild` | Classical.choice, Quot.sound, propext |
| `C122_stock` | `ShopBuild` | Classical.choice, Quot.sound, propext |
| `C123_built` | `Health` | Classical.choice, Quot.sound, propext |
| `C123_drawn` | `Health` | Classical.choice, Quot.sound, propext |
| `C123_execution` | `Health` | Classical.choice, Quot.sound, propext |
| `C123_journal` | `Health` | Classical.choice, Quot.sound, propext |
| `C123_levels` | `Health` | Classical.choice, Quot.sound, propext |
| `C123_records` | `Health` | Classical.choice, Quot.sound, propext |
| `C123_status` | `Health` | Classical.choice, Quot.sound, propext |
| `C124_acts` | `Periodic` | Classical.choice, Quot.sound, propext |
| `C124_built` | `Reports` | Classical.choice, Quot.sound, propext |
| `C124_created` | `Periodic` | Classical.choice, Quot.sound, propext |
| `C124_daily` | `Reports` | Classical.choice, Quot.sound, propext |
| `C124_log` | `Periodic` | Classical.choice, Quot.sound, propext |
| `C124_reports` | `Reports` | Classical.choice, Quot.sound, propext |
| `C124_run` | `Reports` | Classical.choice, Quot.sound, propext |
| `C125_all` | `ShopEarly` | Classical.choice, Quot.sound, propext |
| `C125_bounds` | `ShopEarly` | Classical.choice, Quot.sound, propext |
| `C125_built` | `ShopEarly` | Classical.choice, Quot.sound, propext |
| `C125_constant` | `ShopEarly` | Classical.choice, Quot.sound, propext |
| `C125_items` | `ShopEarly` | Classical.choice, Quot.sound, propext |
| `C125_level` | `ShopEarly` | Classical.choice, Quot.sound, propext |
| `C125_reports` | `ShopEarly` | Classical.choice, Quot.sound, propext |
| `C125_told` | `ShopEarly` | Classical.choice, Quot.sound, propext |
| `C126_activity` | `Music` | Classical.choice, Quot.sound, propext |
| `C126_built` | `Music` | Classical.choice, Quot.sound, propext |
| `C126_constant` | `Music` | Classical.choice, Quot.sound, propext |
| `C126_genre` | `Music` | Classical.choice, Quot.sound, propext |
| `C126_ids` | `Music` | Classical.choice, Quot.sound, propext |
| `C126_integers` | `Music` | Classical.choice, Quot.sound, propext |
| `C126_records` | `Music` | Classical.choice, Quot.sound, propext |
| `C126_who` | `Music` | Classical.choice, Quot.sound, propext |
| `C127_built` | `Hello` | Classical.choice, Quot.sound, propext |
| `C127_constant` | `Hello` | Classical.choice, Quot.sound, propext |
| `C127_log` | `Hello` | Classical.choice, Quot.sound, propext |
| `C127_records` | `Hello` | Classical.choice, Quot.sound, propext |
| `C127_run` | `Hello` | Classical.choice, Quot.sound, propext |
| `C127_who` | `Hello` | Classical.choice, Quot.sound, propext |
| `C128_create` | `Namespace` | Classical.choice, Quot.sound, propext |
| `C128_create_again` | `Namespace` | propext |
| `C128_overwritten` | `Namespace` | Classical.choice, Quot.sound, propext |
| `C128_params_refused` | `Namespace` | propext |
| `C128_params_saved` | `Namespace` | Quot.sound, propext |
| `C128_remove` | `Namespace` | Classical.choice, Quot.sound, propext |
| `C129_description` | `Describe` | Classical.choice, Quot.sound, propext |
| `C129_not_printed` | `Describe` | Classical.choice, Quot.sound, propext |
| `C129_printed` | `Describe` | Classical.choice, Quot.sound, propext |
| `C130_execution` | `SndRetry` | Classical.choice, Quot.sound, propext |
| `C130_run` | `SndRetry` | Classical.choice, Quot.sound, propext |
| `C131_built` | `Blog` | Classical.choice, Quot.sound, propext |
| `C131_constant` | `Blog` | Classical.choice, Quot.sound, propext |
| `C131_given` | `Given` | Classical.choice, Quot.sound, propext |
| `C131_isolated` | `Blog` | Classical.choice, Quot.sound, propext |
| `C131_log` | `Blog` | Classical.choice, Quot.sound, propext |
| `C131_pace` | `Blog` | Classical.choice, Quot.sound, propext |
| `C131_records` | `Blog` | Classical.choice, Quot.sound, propext |
| `C131_run` | `Blog` | Classical.choice, Quot.sound, propext |
| `C131_who` | `Blog` | Classical.choice, Quot.sound, propext |
| `C131_words` | `Given` | Classical.choice, Quot.sound, propext |
| `C132_blog_runs` | `BlogRuns` | Classical.choice, Quot.sound, propext |
| `C132_hello_runs` | `HelloRuns` | Classical.choice, Quot.sound, propext |
| `C132_music_runs` | `MusicRuns` | Classical.choice, Quot.sound, propext |
| `C132_music_step1_runs` | `MusicRuns` | Classical.choice, Quot.sound, propext |
| `C132_no_genre_raises` | `MusicRuns` | Classical.choice, Quot.sound, propext |
| `C132_no_pos_raises` | `ShopRuns` | Classical.choice, Quot.sound, propext |
| `C132_shop_runs` | `ShopRuns` | Classical.choice, Quot.sound, propext |
| `C132_unpopular_raises` | `HelloRuns` | Classical.choice, Quot.sound, propext |
| `C133_loaded` | `DbPopulation` | Classical.choice, Quot.sound, propext |
| `C133_saved` | `DbPopulation` | Classical.choice, Quot.sound, propext |
| `C134_built` | `MusicDb` | Classical.choice, Quot.sound, propext |
| `C134_runs` | `MusicDb` | Classical.choice, Quot.sound, propext |
| `C135_built` | `Slides` | Classical.choice, Quot.sound, propext |
| `C135_constant` | `Slides` | Classical.choice, Quot.sound, propext |
| `C135_given` | `Given` | Classical.choice, Quot.sound, propext |
| `C135_log` | `Slides` | Classical.choice, Quot.sound, propext |
| `C135_records` | `Slides` | Classical.choice, Quot.sound, propext |
| `C135_run` | `Slides` | Classical.choice, Quot.sound, propext |
| `C135_who` | `Slides` | Classical.choice, Quot.sound, propext |
| `C135_words` | `Given` | Classical.choice, Quot.sound, propext |
| `C136_slides_run` | `SlidesRuns` | Classical.choice, Quot.sound, propext |
| `C137_blog` | `ExampleBuilds` | Classical.choice, Quot.sound, propext |
| `C137_blog_build` | `ExampleBuilds` | Classical.choice, Quot.sound, propext |
| `C137_six_nobody` | `ExampleBuilds` | Classical.choice, Quot.sound, propext |
| `C137_slides` | `ExampleBuilds` | Classical.choice, Quot.sound, propext |
| `C137_slides_build` | `ExampleBuilds` | Classical.choice, Quot.sound, propext |
| `C138_hello` | `HelloBuilds` | Classical.choice, Quot.sound, propext |
| `C138_hello_build` | `HelloBuilds` | Classical.choice, Quot.sound, propext |
| `C138_no_friends` | `HelloBuilds` | Classical.choice, Quot.sound, propext |
| `C139_names` | `MusicBuilds` | Classical.choice, Quot.sound, propext |
| `C139_no_artist_raises` | `MusicBuilds` | Classical.choice, Quot.sound, propext |
| `C139_songs` | `MusicBuilds` | Classical.choice, Quot.sound, propext |
| `C139_songs_build` | `MusicBuilds` | Classical.choice, Quot.sound, propext |
| `C139_step1` | `MusicBuilds` | Classical.choice, Quot.sound, propext |
| `C139_step1_build` | `MusicBuilds` | Classical.choice, Quot.sound, propext |
| `C140_no_step_raises` | `ShopBuilds` | Classical.choice, Quot.sound, propext |
| `C140_shop` | `ShopBuilds` | Classical.choice, Quot.sound, propext |
| `C140_shop_build` | `ShopBuilds` | Classical.choice, Quot.sound, propext |
| `C141_bulk_sizes` | `SndRuns` | Classical.choice, Quot.sound, propext |
| `C141_sizes_needed` | `SndRuns` | Classical.choice, Quot.sound, propext |
| `C141_snd_runs` | `SndRuns` | Classical.choice, Quot.sound, propext |
| `C141_stories` | `SndRuns` | Classical.choice, Quot.sound, propext |
| `C141_usual` | `SndRuns` | Classical.choice, Quot.sound, propext |
| `C141_weights_needed` | `SndRuns` | Classical.choice, Quot.sound, propext |
| `C142_agents_needed` | `SndBuilds` | Classical.choice, Quot.sound, propext |
| `C142_parameters_needed` | `SndBuilds` | Classical.choice, Quot.sound, propext |
| `C142_snd_builds` | `SndBuilds` | Classical.choice, Quot.sound, propext |
| `C142_snd_never_raises` | `SndBuilds` | Classical.choice, Quot.sound, propext |
| `C143_blog_one` | `Firsts` | Classical.choice, Quot.sound, propext |
| `C143_blog_two` | `Firsts` | Classical.choice, Quot.sound, propext |
| `C143_slide_one` | `Firsts` | Classical.choice, Quot.sound, propext |
| `C143_slide_two` | `Firsts` | Classical.choice, Quot.sound, propext |

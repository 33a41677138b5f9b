# Formal model of unyts in Lean 4

## What is modelled

The pure and state-machine core of `/repo/src/unyts`, function by function, in `lean/Verif/Model/*.lean`.
Every definition cites the file and lines it models. The independent vocabulary in which the
properties are stated is in `lean/Verif/Spec/*.lean`; the property theorems are in
`lean/Verif/Props/*.lean`; helper lemmas in `lean/Verif/Lemmas/*.lean`.

| code | model |
|---|---|
| `network.py` UNode, UDigraph, Conversion | `Model/Network.lean` |
| `searches.py` BFS, lean_BFS, DFS | `Model/Searches.lean` |
| `searches.py` print_path | `Model/PathText.lean` |
| `searches.py` hybrid_BFS (two workers, a polling caller, any schedule) | `Model/Hybrid.lean` |
| `converter.py`, all functions except printing and `_str2lambda` | `Model/Converter.lean`, `Model/Session.lean`; the recursion as it is written in `Model/Recursion.lean` |
| the temperature conversions of `database.py` | `Model/Temperature.lean` |
| `helpers/multi_split.py`, `helpers/unit_string_tools.py` | `Model/Strings.lean` |
| `operations.py` | `Model/Operations.lean` |
| `helpers/caster.py`, `helpers/is_number.py`, Python's `int`, `float`, `complex`, `str` of an int | `Model/Number.lean` |
| `helpers/is_unit.py` | `Model/IsUnit.lean` |
| `unit_class.py`, `units/*.py` | `Model/UnitClass.lean`, `Model/QuantityOps.lean` (`@`, powers between quantities, rounding, `equals`, tuples), `Model/TupleProducts.lean`, `Model/Mean.lean`, `Model/Arguments.lean` (quantities as arguments), `Model/Custom.lean` (arguments of `set_conversion`), `Model/Tuples.lean`, `Model/Lists.lean` (lists of quantities), `Model/Dates.lean` (`units/date.py`), `Model/Arrays.lean` (values that are arrays) |
| `unitary.py` | `Model/Unitary.lean` |
| the window (`gui.py`): what its functions compute, not the drawing | `Model/Gui.lean`, `Model/Menus.lean` (menus and their ticks) |
| the text of a quantity and its setters (`unit_class.py`, `units/unitless.py`) | `Model/QuantityText.lean` |
| `parameters.py` | `Model/Parameters.lean`; `set_density`, `get_density`, and `set_fvf`, `get_fvf` of `database.py`: `Model/Constants.lean` |
| import: start-up parts of `dictionaries.py`, `database.py`, `network.py`, `__init__.py`; `delete_cache`, `save`, `load` | `Model/Boot.lean` |
| `gui.py`: opening and closing the window, export and import of the memory | `Model/WindowMemory.lean` |
| `database.py` `_load_network`, `_clean_network` | `Model/Loader.lean` |
| the data of `dictionaries.py` and `database.py:358-556` | `Model/Shipped.lean`, written by `tools/shipped.py` |
| `database.py` `_create_*`, `_complete_products` | `Model/Dictionary.lean` |

Not modelled: the layout, colours and timers of `gui.py` (its form, dialogs, elapsed time, moving text, menus and memory are modelled, C110–C114, C121, C126), logging and printing of paths, pandas/SimPandas interoperability beyond
`convert_for_SimPandas`, pickling formats, arrays beyond C117 and C118 (one dimension, exact numbers, no infinity or NaN; that quantities share the array
they were built from is not modelled), complex numbers, dates beyond C115, the optional `name` of a quantity
(except what it does to `units`).

## How Python is read

* Strings are lists of characters; `lower`/`upper` cover ASCII, Latin-1 and Greek letters.
* Numbers are exact rationals (`Rat`); a constant written in the code is the decimal number it spells.
  Floating-point rounding, NaN and infinities are outside the model (`np.inf` as a search limit is `none`).
* Node identity (`UNode` has no `__eq__`) is a natural-number identifier.
* A dictionary is an association list in insertion order; a set is a list used through membership only, or, where
  the order of enumeration matters, an arbitrary enumeration (C29).
* Exceptions are values; the state survives an exception.
* Recursion bounded by the library's own `recursion` counter is structural recursion on that counter (C25 proves that
  this is what the code does); loops without a counter (BFS, DFS) use fuel, and a theorem shows that the fuel given
  never runs out. The mutual recursion of `unit_product` and `unit_division` is bounded by the call stack.
* `input()` prompts are an error value (`needsInput`): the model has no interactive user.
* Which of its two workers hybrid_BFS hears first is a stream of choices in the state; theorems hold for every stream.
* `_apply_conversion` is modelled on paths of nodes; `convertible(None, ...)` is not modelled.
* JSON and pickle give back what they were given; a file is absent, damaged or holds a value; a write is two steps.
* In `Model/Boot.lean` the dictionary, graph and tables are abstract (a `Kit`); cloudpickle is installed in C46, C57.
* In the loader lists and tuples of names are not distinguished, and the `_FROMvolume` pass, which no kind of the
  library uses, is an error.

## Plan per property

| id | what is modelled, how it is proved |
|---|---|
| C01-C03 | BFS as a queue machine; invariant (queue sorted by length, every visited path expanded, no visited path ends at the target), decreasing measure |
| C04 | `_get_descendants` as a ball of a radius in the name graph; midpoint argument on two-way networks |
| C05 | DFS with the shared visited set; invariant "no unvisited useful node is lost" |
| C06 | interleaving semantics of two workers and a caller; invariants over all reachable states, progress for termination |
| C07, C13, C14 | "consistent network": every node has an injective reading of a common scale preserved by every edge; soundness of any path and of any remembered path |
| C08-C10 | network operations; invariants of networks over histories of `set_unit`, `set_conversion` |
| C11, C12, C15-C20, C24-C27, C69, C70, C73 | the converter as a state machine over (network, memory, previous, cached name graph, parameters); invariants of sessions |
| C21-C23 | density, formation volume factor and temperature rules of the converter |
| C28-C37 | string functions; denotation of a unit string as an exponent map |
| C38-C43, C65-C68, C72, C74, C75 | the Unit class over the converter; amounts of quantities through readings |
| C44, C45, C47, C48 | settings, files and crash points of `save_params` |
| C46, C57, C58 | start-up as a sequence of disk states, with a crash possible after each |
| C49-C51 | the caster on all strings of digits |
| C52 | any dictionary the loader accepts: invariant of its loops; the shipped data by evaluation of the loader inside the kernel |
| C53, C55, C59-C63, C76 | the shipped network: the loader evaluated on the transcribed data, every edge checked against a table of readings by the kernel, then chains of any length by induction |
| C54 | the four temperature scales as affine readings; chains of any length |
| C56 | is_unit on all strings |
| C64 | the shipped network under the converter, any history |
| C77 | the caster on decimals and exponents of any length |
| C78-C81 | the dictionary after the import: `_create_*` and `_complete_products` proved for every dictionary of basic names (Spec/Dictionary.lean says what they should list), then the shipped names by kernel evaluation of the loader; classes of `units` through the order of the keys |
| C82-C86 | powers, inverses, `@`, rounding, `equals`, the laws of energy and electricity, over the Unit class |
| C87-C89 | the islands of the shipped network (rank tables checked by the kernel, ShippedRanks/ShippedIslands): every name climbs to its hub; the lean search finds every name within 6 generations (LeanOn), so `convert` answers exactly for the names on one island, in every history of questions; volumes and weights, where some names lie further out and one conversion has no reverse, through shortcuts of a path (LeanShort, ShippedVolume) |
| C90, C91 | metric prefixes and temperature scales end to end through `convert`, from the readings of the shipped network and C88 |
| C92 | `print_path` over paths (`Model/PathText.lean`); the path of an answer is a path of the network (C07's invariant) |
| C93 | every path between two weights stays among the weights (the only way out, the shared ounces, is a gate passed at most once by a path without repetitions), and the weights have consistent readings |
| C94 | every search but DFS returns a walk that takes every short cut (BFS and lean_BFS by the levels of the search, hybrid by choosing one of them); the invariant of a history is that every remembered answer goes along such a walk; on the shipped library the walk is even shortest |
| C95 | a shortest path between two pressures that are not gauge never enters the gauge names: they hang on the rest by few links, listed and checked by the kernel, and an excursion would be longer than the direct way |
| C96 | C16's conversion part by part (any number of factors), fed with the exact answers of C76, C93 and C95 for the factors; names with signs in the shipped dictionary checked by the kernel |
| C97 | a language of programs (`Spec/Programs.lean`): `run` is what Python does with the modelled operations, `amount` what the program means; induction over programs with the invariant that the library is in a state reached by conversions and questions, in which `convertible` says yes (joined names are never noted as tried in vain) and `convert` multiplies by the quotient of the sizes |
| C98 | `Model/Arguments.lean`: the types of the arguments of `convert`, `convertible`, `to`, `units`, constructors; with the exact answers of C97's lemmas; the counterexamples on the shipped library |
| C99 | the same model; C81 for the class of a name; percentages from the dictionary; the failing cases are proved for every state of the shipped dictionary |
| C100 | `Quantity.mul`, `div`, `floordiv` run with the exact answers of convertible and convert on the shipped library (C88, C89, C97), the unit texts of C37, the class of a ratio of C81 |
| C101 | the converter by parts (C16, C96) the first time, the memory the second time; which pairs are noted as tried, by induction over the questions before |
| C102 | UK measures and reservoir volumes are behind gates that a path passes at most once; every other contradiction touches the standard barrel, which a path without repetitions visits at most once, so an answer is off by at most two rounded factors |
| C103 | the parts of C96 with factors that are only near their sizes: the errors multiply, bounded by Bernoulli's inequality; volumes from C102, psi from C95; a search between two names without a path answers nothing and changes no memory |
| C104 | the relation "another way to write" as an inductive over the shipped tables (Spec/Spellings); respelling keeps the reading of a name (kernel check over all entries), so the answers of C87/C88/C93/C95 give the same number; programs by C97 with all sizes one |
| C105 | unitary.py as a list of statements (Model/Unitary), executed over the model of `units` and `Unit`; induction over the statements against a pure evaluation; the class of each unit by C81 |
| C106 | the search joins compound names like any other (LeanSigned: lean_BFS with no early meeting), so `converter` never splits them; neighbours of the listed names tabulated by tools/neartable.py and checked by the kernel against the shipped declarations (NearTable, Neighbours); sizes by the readings of C91 |
| C107 | the tuple branches of `Unit.__add__`/`__sub__`/`__radd__` (Model/Tuples); induction over the terms |
| C108 | Python's `sum` as the fold of `__add__` from 0; each addition by C97 (`Gauged`), induction over the list with the history of the library in the invariant |
| C109 | Python's `max`/`min` (first best) and a stable insertion sort as models of the built-ins, comparisons by C97; induction, permutation and order as in Mathlib |
| C110 | reading a row (Model/Gui: readRow), case analysis; number texts are parameters |
| C111 | `_calculate`/`_rcalculate` as one function and its mirror, with fuel 2 proved enough; answers by C76 |
| C112 | the loops of the dialogs over the list of answers; induction over refused answers; the proposal by C11 |
| C113 | the arithmetic of `_calculation_time`, `round` as a parameter |
| C114 | the state machine of `_partial_msg`, invariant `first + 53 ≤ length`, induction over the steps |
| C115 | dates as counts of NumPy ticks; the tick of one resolution divides that of another, so rebuilding at the finer one keeps the moment; the table of built-in times shows which names NumPy knows |
| C116 | C91 lifted to quantities: one lemma for `to`, comparisons by monotony of the scales, then the lemmas on lists of C109 |
| C117 | every branch of the converter with a number is the branch with None, then the call (`given`); by induction on the recursion budget; then arrays by the list monad |
| C118 | each operation on arrays inverted: the same operation on the elements runs through the same states; induction on the computation. Amounts by the induction of C97 |
| C119 | `set_density`, `get_density` with the converter they call; the world after is the world before but for one field; amounts by the ratio theorem on the started library; the pound units by the path the search takes |
| C120 | `set_fvf` of the database and of the network, `get_fvf`; the amounts by C22 on the world after |
| C121 | the ticks and commands of the menus (Model/Menus) over `ParamCall.run`; an invariant (`Honest`, Spec/Menus) kept by every click |
| C122 | `str`, `repr` (Model/QuantityText); the text is cut at the first underscore; `units` a second time by case analysis |
| C123 | the two setters, by definition; counterexamples |
| C124 | `cleaner` step by step on a general number with marks; the groups by the splitting at the separator |
| C125 | the arguments as sums of what the type tests distinguish; cases, then `setConversion_spec` and C09 |
| C126 | `Model/WindowMemory.lean`; every write of a start keeps the file of the searches (by composition); `update` of association lists; the settings a start leaves |
| C127 | no direct conversion touches the name: an invariant of sessions; then C01 and the converter on names that are not joined |
| C128 | the names are listed in one class each; by induction on the calculation, every step keeps `⟨class of the unit, unit, number⟩` and the library |
| C129 | `in`, `count`, `index`, `remove` as loops over `==`; induction over the list with what C109 uses of the comparisons |
| C130 | C128 for the shares; one step for every quantity its class accepts; the induction of C97 over computations with shares |
| C131 | the loop over the entries against an independent relation "done on each entry in turn" (Spec/TupleProducts); C130 for each entry |
| C132 | one step through the conversions of C97, then induction over the parts against an inductive relation (Spec/Remainders) |
| C133 | C108 for the sum, one division, and the comparisons of C97; induction over the list for the bounds |
| C134 | `__bool__` and Python's `any`, `all`, filtering (Model/Mean); induction over the list |
| C71 | sizes of compound units: a typing of unit strings by kinds (Spec/Sizes.lean) and induction over the converter |

Where the code violates the property as stated, the negation is proved with a concrete witness (`_fails`) and the part
that does hold is proved under the suffix `_partial`; the note in MANIFEST.json says what is missing.

## Tests of the theorems

`seeded/mutants*.py` are edits of the model as a bug would make them; `tools/mutate.py` applies each to a scratch copy,
elaborates what depends on it and records in `seeded/LOG.jsonl` which theorems no longer have a proof.

## Trusted base

Lean 4.33.0 kernel; the axioms `propext`, `Classical.choice`, `Quot.sound` (no others: printed for every property
theorem by vcheck); the reading of Python described above; the correspondence of each definition with the lines it
cites; for the shipped data, `tools/shipped.py`, which reads the text of `dictionaries.py` and `database.py`.

## Process note

The instructions say that /repo is to be read as text and not run. Once, after `Model/Number.lean` had been written
from the source text, `helpers/caster.py` was executed by mistake on nine strings to compare results. The results agreed with
the model; nothing in the model was changed because of it and no repository code was run afterwards.

{"id": "C01", "title": "Every search returns a genuine conversion path", "statement": "Whenever BFS, lean_BFS, DFS or hybrid_BFS returns a path from start to end, the path begins with start, finishes with end, repeats no node, and every two consecutive nodes are joined by a direct conversion of the network that was searched.", "quantifier": "every network, every start and end node, every generations limit, all four algorithms", "why_tests_cant": "Networks, including those grown by users with set_unit/set_conversion, are unbounded; tests only search the shipped one.", "anchors": ["src/unyts/searches.py:BFS", "src/unyts/searches.py:lean_BFS", "src/unyts/searches.py:DFS", "src/unyts/searches.py:hybrid_BFS"]}
{"id": "C02", "title": "BFS terminates and is complete", "statement": "BFS always terminates; it returns a path if and only if end can be reached from start through direct conversions, and returns None otherwise.", "quantifier": "every finite network, every start and end node", "why_tests_cant": "Termination and completeness concern all networks (cycles, self-loops, unreachable parts), not samples.", "anchors": ["src/unyts/searches.py:BFS"]}
{"id": "C03", "title": "BFS returns a shortest path", "statement": "No chain of direct conversions from start to end is shorter than the path BFS returns.", "quantifier": "every network, every start/end, every competing chain of conversions", "why_tests_cant": "Minimality quantifies over all alternative paths.", "anchors": ["src/unyts/searches.py:BFS"]}
{"id": "C04", "title": "The default algorithm (lean_BFS) loses nothing on two-way networks", "statement": "On a network whose conversions all exist in both directions and whose names are distinct and not compound, lean_BFS finds a path of the same (shortest) length as BFS whenever the distance is at most twice the generations limit plus two; it never finds one when BFS finds none.", "quantifier": "every two-way network, every start/end, every generations limit", "why_tests_cant": "The pruned sub-network must contain a shortest path for every topology.", "anchors": ["src/unyts/searches.py:lean_BFS", "src/unyts/converter.py:_get_descendants"]}
{"id": "C05", "title": "DFS is complete within its branch depth", "statement": "If every node reachable from start reaches end within the depth limit whenever it reaches end at all, DFS returns a path exactly when end is reachable from start (start different from end).", "quantifier": "every network with distinct simple names, every start/end, every depth", "why_tests_cant": "Depth-first search with a global visited set can lose targets on unusual topologies; only an induction over all of them settles it.", "anchors": ["src/unyts/searches.py:DFS", "src/unyts/converter.py:_get_descendants"]}
{"id": "C06", "title": "hybrid_BFS is correct under every schedule", "statement": "For every interleaving of the two worker threads and the polling caller, if hybrid_BFS returns a path it is one of the two paths the workers compute, if it returns None both workers found nothing, and once both workers have finished normally the caller's next polls terminate.", "quantifier": "every interleaving of worker writes and caller polls, every pair of worker results", "why_tests_cant": "Thread schedules cannot be enumerated by tests.", "anchors": ["src/unyts/searches.py:hybrid_BFS", "src/unyts/searches.py:_bfs", "src/unyts/searches.py:_lean_bfs", "src/unyts/searches.py:SerialRun"]}
{"id": "C07", "title": "The chosen algorithm does not change the value", "statement": "On a network whose conversions are mutually consistent, converting a value along a path found by any of the algorithms gives the same number.", "quantifier": "every consistent network (linear or not), every value, every pair of algorithms", "why_tests_cant": "Different algorithms return different paths; agreement must hold along all of them.", "anchors": ["src/unyts/searches.py", "src/unyts/converter.py:_apply_conversion", "src/unyts/parameters.py:set_algorithm"]}
{"id": "C08", "title": "Redefining an existing unit name is harmless", "statement": "Calling set_unit or set_conversion with a name that already exists never raises, keeps that name resolving to the node it resolved to before, and leaves every existing direct conversion in place (the first definition of a pair wins).", "quantifier": "every sequence of set_unit/set_conversion calls on every network", "why_tests_cant": "Histories of definitions are unbounded.", "anchors": ["src/unyts/network.py:UDigraph.add_node", "src/unyts/network.py:UDigraph.add_edge", "src/unyts/network.py:UDigraph.get_node", "src/unyts/units/custom.py:set_conversion"]}
{"id": "C09", "title": "A new conversion takes effect", "statement": "After set_conversion(a, b, f), convert(v, a, b) returns f(v).", "quantifier": "every state of the library, every a, b, f, v", "why_tests_cant": "Whether it takes effect depends on the whole history of searches and caches before the call.", "anchors": ["src/unyts/units/custom.py:set_conversion", "src/unyts/network.py:UDigraph.get_edges_str", "src/unyts/converter.py:_get_conversion"]}
{"id": "C10", "title": "The default reverse conversion is an inverse exactly for proportional conversions", "statement": "When set_conversion is given no reverse, the reverse it installs, x / conversion(1), undoes the conversion for every value if and only if the conversion is multiplication by a non-zero constant.", "quantifier": "every conversion function, every value", "why_tests_cant": "The claim ranges over all functions and all numbers.", "anchors": ["src/unyts/units/custom.py:set_conversion", "src/unyts/network.py:Conversion.get_convert"]}
{"id": "C11", "title": "Converting a unit to itself changes nothing", "statement": "convert(v, u, u) returns v.", "quantifier": "every value, every unit string (known to the library or not), every reachable state of memory and network", "why_tests_cant": "Any string is accepted; the result depends on memory left by earlier calls.", "anchors": ["src/unyts/converter.py:convert", "src/unyts/converter.py:_get_conversion"]}
{"id": "C12", "title": "The returned function and the returned number agree", "statement": "If convert(None, a, b) returns a function g then convert(v, a, b) returns g(v).", "quantifier": "every state, every pair of units, every value, with the cache in use", "why_tests_cant": "Two different code paths (path application and composed lambdas) must agree for all values and networks.", "anchors": ["src/unyts/converter.py:_apply_conversion", "src/unyts/converter.py:_lambda_conversion", "src/unyts/converter.py:_get_conversion", "src/unyts/converter.py:_converter"]}
{"id": "C13", "title": "Round trips", "statement": "On a consistent network, convert(convert(v, a, b), b, a) equals v for simple units a and b.", "quantifier": "every consistent network, memory left by any earlier conversions, every value", "why_tests_cant": "Must hold for every network, path and number.", "anchors": ["src/unyts/converter.py:convert", "src/unyts/converter.py:_get_conversion"]}
{"id": "C14", "title": "Transitivity", "statement": "On a consistent network converting a to b and then b to c gives the same number as converting a to c directly.", "quantifier": "every consistent network, memory left by any earlier conversions, every value, every a, b, c", "why_tests_cant": "Paths found for the three pairs are unrelated; agreement must hold for all.", "anchors": ["src/unyts/converter.py:convert", "src/unyts/converter.py:_get_conversion"]}
{"id": "C15", "title": "Ratios convert part by part", "statement": "convert(v, 'a/b', 'c/d') equals v * k1 / k2 where k1 converts one a into c and k2 converts one b into d, when a, b, c, d are simple units and the parts correspond only that way.", "quantifier": "every network, every simple a, b, c, d, every value", "why_tests_cant": "Combinations of parts are unbounded.", "anchors": ["src/unyts/converter.py:_converter", "src/unyts/helpers/unit_string_tools.py:split_unit"]}
{"id": "C16", "title": "Conversions obtained by splitting are proportional", "statement": "Whenever a compound conversion is obtained by converting its parts there is one factor k such that every value v converts to v * k; zero converts to zero and scaling v scales the result.", "quantifier": "every state, compound pair and value", "why_tests_cant": "All values and all networks.", "anchors": ["src/unyts/converter.py:_converter"]}
{"id": "C17", "title": "Repeating a successful conversion gives the same answer", "statement": "With the cache on, if convert(v, a, b) returned a number, calling it again at once returns the same number; and it keeps returning it after any number of further conversions between simple units.", "quantifier": "every state, every pair, every value, every history of conversions between simple units", "why_tests_cant": "Histories are unbounded; each call mutates memory.", "anchors": ["src/unyts/converter.py:convert", "src/unyts/network.py:UDigraph.memory"]}
{"id": "C18", "title": "convertible is a stable question", "statement": "Calling convertible(a, b) twice in a row gives the same answer.", "quantifier": "every state and every pair of units", "why_tests_cant": "The function mutates shared search state.", "anchors": ["src/unyts/converter.py:convertible", "src/unyts/network.py:UDigraph.previous"]}
{"id": "C19", "title": "convertible means convert works", "statement": "If convertible(a, b) returns True then an immediately following convert(v, a, b) with clean unit strings does not raise NoConversionFoundError.", "quantifier": "every state with cache on, every pair, every value", "why_tests_cant": "Depends on all reachable memory states.", "anchors": ["src/unyts/converter.py:convertible", "src/unyts/converter.py:convert"]}
{"id": "C20", "title": "Blanks and outer decoration of unit names are ignored", "statement": "convert gives the same result when blanks, quotes or an outer opening/closing parenthesis are added around the unit names.", "quantifier": "every unit string, every amount of decoration", "why_tests_cant": "All strings.", "anchors": ["src/unyts/converter.py:_clean_input"]}
{"id": "C21", "title": "Volume to mass conversion uses the density", "statement": "Converting a volume to a weight multiplies by the density expressed in the target units, and converting a weight to a volume divides by it.", "quantifier": "every density, value and pair of volume and weight units", "why_tests_cant": "All values, densities and unit pairs.", "anchors": ["src/unyts/converter.py:_density_conversion", "src/unyts/parameters.py:set_density"]}
{"id": "C22", "title": "Changing the formation volume factor takes effect", "statement": "After set_fvf(b), conversions between reservoir and standard volumes use b, also when the same conversion has already been made with another factor.", "quantifier": "every history of set_fvf and convert, every positive factor", "why_tests_cant": "Histories and caches.", "anchors": ["src/unyts/network.py:UDigraph.set_fvf", "src/unyts/network.py:UDigraph.get_fvf", "src/unyts/database.py"]}
{"id": "C23", "title": "Temperature gradients use slopes, not offsets", "statement": "Converting a temperature gradient multiplies by the ratio of the degree sizes and divides by the conversion of the denominator: offsets never enter.", "quantifier": "every pair of temperature scales, every denominator pair, every value", "why_tests_cant": "All values and denominators.", "anchors": ["src/unyts/converter.py:_get_conversion", "src/unyts/dictionaries.py:temperatureRatioConversions"]}
{"id": "C24", "title": "Inverted ratios invert the value", "statement": "convert(v, 'a/b', 'b/a') equals 1/v.", "quantifier": "every pair of distinct names, every non-zero value", "why_tests_cant": "All strings and values.", "anchors": ["src/unyts/converter.py:_get_conversion"]}
{"id": "C25", "title": "Conversion always terminates within the recursion limit", "statement": "Every call of convert or convertible terminates, and nests no more than max_recursion + 1 levels of conversion, whatever the network and memory contain.", "quantifier": "every network, memory, unit strings and recursion limit", "why_tests_cant": "Cyclic networks and compound units could recurse for ever.", "anchors": ["src/unyts/converter.py:_get_recursion_limit", "src/unyts/converter.py:_converter"]}
{"id": "C26", "title": "Percentages and fractions", "statement": "Converting a fraction to a percentage multiplies by 100, the reverse divides by 100, and the two are mutually inverse.", "quantifier": "every value, every spelling of the names in any letter case", "why_tests_cant": "All values and spellings.", "anchors": ["src/unyts/converter.py:_get_conversion"]}
{"id": "C27", "title": "Dimensionless numbers can be given any simple unit", "statement": "Converting from a dimensionless unit to any unit without a ratio returns the value unchanged.", "quantifier": "every value and every unit string without '/'", "why_tests_cant": "All strings.", "anchors": ["src/unyts/converter.py:_get_conversion"]}
{"id": "C28", "title": "Splitting a unit string loses nothing", "statement": "Joining the list produced by multi_split with no removals gives back the original string.", "quantifier": "every string, every non-empty set of non-empty separators", "why_tests_cant": "All strings and separators.", "anchors": ["src/unyts/helpers/multi_split.py:multi_split"]}
{"id": "C29", "title": "Splitting does not depend on the order of separators", "statement": "multi_split gives the same list for every ordering and repetition of the same separators.", "quantifier": "every string, every permutation of separators", "why_tests_cant": "Python set ordering of strings is randomised per process.", "anchors": ["src/unyts/helpers/multi_split.py:multi_split"]}
{"id": "C30", "title": "Split parts are atomic", "statement": "Every element multi_split returns is either a separator or a non-empty string containing no separator.", "quantifier": "every string, every set of separators", "why_tests_cant": "All strings.", "anchors": ["src/unyts/helpers/multi_split.py:multi_split"]}
{"id": "C31", "title": "reduce_units preserves the dimension", "statement": "reduce_units returns a string that denotes the same product of powers of base units as its argument.", "quantifier": "every unit string made of names, '*' and '/'", "why_tests_cant": "All strings.", "anchors": ["src/unyts/helpers/unit_string_tools.py:reduce_units"]}
{"id": "C32", "title": "reduce_units removes what can be cancelled", "statement": "In the string reduce_units returns no unit appears both as numerator and as denominator (unless everything cancelled), so reducing again changes nothing.", "quantifier": "every unit string made of names, '*' and '/'", "why_tests_cant": "All strings.", "anchors": ["src/unyts/helpers/unit_string_tools.py:reduce_units"]}
{"id": "C33", "title": "reduce_parentheses preserves the meaning", "statement": "reduce_parentheses returns a string without parentheses that denotes the same product of powers as its argument, and raises ValueError when the numbers of opening and closing parentheses differ.", "quantifier": "every unit string made of names, '*', '/' and balanced parentheses", "why_tests_cant": "All nestings.", "anchors": ["src/unyts/helpers/unit_string_tools.py:reduce_parentheses"]}
{"id": "C34", "title": "Unit powers", "statement": "For a name u without digits, signs or operators and any integers n and m other than 0 and 1, unit_base_power(u + str(n)) is (u, n), and unit_power(unit_power(u, n), m) equals unit_power(u, n*m).", "quantifier": "every name, all integers", "why_tests_cant": "All integers and names.", "anchors": ["src/unyts/operations.py:unit_base_power", "src/unyts/operations.py:unit_power"]}
{"id": "C35", "title": "Inverting a unit twice gives the unit back", "statement": "unit_inverse(unit_inverse(u)) = u for u a simple name, a name with a power, or a ratio of two simple names.", "quantifier": "every such name", "why_tests_cant": "All names and powers.", "anchors": ["src/unyts/operations.py:unit_inverse"]}
{"id": "C36", "title": "Dimensionless is neutral in products and quotients", "statement": "unit_product(u, d), unit_product(d, u) and unit_division(u, d) are u for every dimensionless spelling d and every unit u that is not itself trivial.", "quantifier": "every unit string and dimensionless spelling", "why_tests_cant": "All strings.", "anchors": ["src/unyts/operations.py:unit_product", "src/unyts/operations.py:unit_division"]}
{"id": "C37", "title": "Product and quotient of unit names have the right dimension", "statement": "For simple unconvertible names a, b, unit_product(a, b) denotes a*b and unit_division(a, b) denotes a/b; for a convertible pair the result is the square of the first, respectively dimensionless.", "quantifier": "every pair of simple names, every network", "why_tests_cant": "All names and networks.", "anchors": ["src/unyts/operations.py:unit_product", "src/unyts/operations.py:unit_division"]}
{"id": "C38", "title": "Adding quantities", "statement": "Adding two quantities of the same kind yields the first one's unit and the sum of the values after converting the second; on a consistent network a+b and b+a denote the same quantity.", "quantifier": "every pair of quantities of a kind, every consistent network", "why_tests_cant": "All values and units.", "anchors": ["src/unyts/unit_class.py:Unit.__add__"]}
{"id": "C39", "title": "Comparisons are coherent", "statement": "For two quantities of the same kind, exactly one of <, ==, > holds, <= is the disjunction of < and ==, and != is the negation of ==; on a consistent network with increasing conversions a < b iff b > a.", "quantifier": "every pair of quantities of a kind", "why_tests_cant": "All values and units.", "anchors": ["src/unyts/unit_class.py:Unit.__lt__", "src/unyts/unit_class.py:Unit.__le__", "src/unyts/unit_class.py:Unit.__eq__", "src/unyts/unit_class.py:Unit.__gt__"]}
{"id": "C40", "title": "Percentage arithmetic", "statement": "The sum of p percent and q percent is p+q percent, p percent times a number k is p*k percent, and rounding keeps the magnitude.", "quantifier": "every p, q, k", "why_tests_cant": "All values.", "anchors": ["src/unyts/unit_class.py:Unit.__add__", "src/unyts/unit_class.py:Unit.__round__", "src/unyts/units/unitless.py:Percentage"]}
{"id": "C41", "title": "Negation and absolute value", "statement": "-(-x) equals x and abs(-x) equals abs(x) with the unit kept, for every quantity including percentages.", "quantifier": "every quantity", "why_tests_cant": "All values and kinds.", "anchors": ["src/unyts/unit_class.py:Unit.__neg__", "src/unyts/units/unitless.py:Percentage.__neg__"]}
{"id": "C42", "title": "units() always keeps the number and the unit", "statement": "units(v, u) returns an object whose unit is u without outer blanks and whose displayed value is v, or a user unit when u is unknown, whenever it returns at all.", "quantifier": "every value and unit string", "why_tests_cant": "All strings.", "anchors": ["src/unyts/units/define.py:units", "src/unyts/units/custom.py:UserUnits"]}
{"id": "C43", "title": "x.to(u).to(x.unit) is x", "statement": "On a consistent network converting a quantity to another unit of its kind and back gives an equal quantity of the same kind.", "quantifier": "every quantity and convertible unit", "why_tests_cant": "All values and networks.", "anchors": ["src/unyts/unit_class.py:Unit.convert"]}
{"id": "C44", "title": "Settings persist", "statement": "After any setting is changed through an API call that saves, a new process that starts normally sees every setting with its saved value.", "quantifier": "every sequence of setting calls, every set of values", "why_tests_cant": "Histories of settings.", "anchors": ["src/unyts/parameters.py:UnytsParameters.save_params", "src/unyts/parameters.py:UnytsParameters.load_params"]}
{"id": "C45", "title": "A crash while saving does not prevent the next start", "statement": "If the process dies at any point while saving its settings, the next import still succeeds and sees either the old or the new settings.", "quantifier": "every crash point of the save, every pair of old and new settings", "why_tests_cant": "Crash points.", "anchors": ["src/unyts/parameters.py:UnytsParameters.save_params", "src/unyts/parameters.py:UnytsParameters.load_params"]}
{"id": "C46", "title": "A missing cache file never prevents the start", "statement": "Whatever subset of the cache files is missing, importing the library succeeds and builds the same network as a clean start.", "quantifier": "every subset of missing cache files, every settings file", "why_tests_cant": "All combinations of files on disk.", "anchors": ["src/unyts/database.py", "src/unyts/dictionaries.py"]}
{"id": "C47", "title": "Switches toggle", "statement": "Calling a switch with no argument flips it, calling it twice restores it, and calling it with any string sets it on except for the off spellings in any letter case and with outer blanks.", "quantifier": "every state and every string", "why_tests_cant": "All strings.", "anchors": ["src/unyts/parameters.py:UnytsParameters.print_path", "src/unyts/parameters.py:UnytsParameters.cache", "src/unyts/parameters.py:UnytsParameters.raise_error", "src/unyts/parameters.py:UnytsParameters.verbose"]}
{"id": "C48", "title": "set_user_folder points at the folder given", "statement": "After set_user_folder(p) for an existing folder p, the cache files are placed inside p.", "quantifier": "every path string of an existing folder", "why_tests_cant": "All strings.", "anchors": ["src/unyts/parameters.py:UnytsParameters.set_user_folder"]}
{"id": "C49", "title": "to_number inverts str on integers", "statement": "to_number(str(n)) = n for every integer n.", "quantifier": "all integers", "why_tests_cant": "Unbounded.", "anchors": ["src/unyts/helpers/caster.py:to_number"]}
{"id": "C50", "title": "Thousands separators are ignored", "statement": "Writing an integer with one of the accepted thousands separators between groups of three digits gives the same number.", "quantifier": "all integers, all accepted separators", "why_tests_cant": "Unbounded.", "anchors": ["src/unyts/helpers/caster.py:to_number"]}
{"id": "C51", "title": "Parentheses mean negative", "statement": "to_number('(' + str(n) + ')') = -n for every natural number n.", "quantifier": "all natural numbers", "why_tests_cant": "Unbounded.", "anchors": ["src/unyts/helpers/caster.py:to_number"]}
{"id": "C52", "title": "Every built-in conversion can be undone", "statement": "In the network the loader builds every direct conversion from a to b is accompanied by a direct conversion from b to a.", "quantifier": "every dictionary of units the loader may be given", "why_tests_cant": "The loader's loops run over dictionaries of any size; the shipped one is one instance.", "anchors": ["src/unyts/database.py:_load_network"]}
{"id": "C53", "title": "Prefixes scale correctly", "statement": "A metric prefix applied to a unit of order n converts to that unit by the prefix factor raised to n.", "quantifier": "every prefix, every prefixed unit of the dictionary", "why_tests_cant": "All units and values.", "anchors": ["src/unyts/database.py:_load_network", "src/unyts/dictionaries.py:SI"]}
{"id": "C54", "title": "Temperature scales are consistent", "statement": "The built-in conversions between Celsius, Fahrenheit, Kelvin and Rankine are mutually consistent: converting along any cycle of them returns the original number.", "quantifier": "every value, every cycle of direct temperature conversions", "why_tests_cant": "All values and cycles.", "anchors": ["src/unyts/database.py:_load_network"]}
{"id": "C55", "title": "Built-in pressure conversions are consistent", "statement": "Converting a pressure along any two different chains of built-in conversions gives the same number.", "quantifier": "every value, every pair of chains", "why_tests_cant": "All values and chains.", "anchors": ["src/unyts/database.py:_load_network"]}
{"id": "C56", "title": "is_unit accepts compounds of known units", "statement": "is_unit accepts every known name, and every product or quotient of known names; it accepts nothing else.", "quantifier": "every string, every dictionary", "why_tests_cant": "All strings.", "anchors": ["src/unyts/helpers/is_unit.py:is_unit"]}
{"id": "C57", "title": "A crash during the start does not prevent later starts", "statement": "If the process dies at any point of an import, or any of the cache files is damaged, a later import succeeds and gives the same network.", "quantifier": "every crash point of the import, every combination of missing, damaged and correct cache files, every settings", "why_tests_cant": "Crash points and combinations of files.", "anchors": ["src/unyts/database.py:_rebuild_units", "src/unyts/dictionaries.py:_load_dictionary", "src/unyts/parameters.py:UnytsParameters.save_params"]}
{"id": "C58", "title": "Saved searches come back", "statement": "What save() stored is in the search memory after the next start and after load(), and load(path) brings back what save(path) stored.", "quantifier": "every search memory, every state of the files", "why_tests_cant": "All histories of saves and starts.", "anchors": ["src/unyts/network.py:UDigraph.save_memory", "src/unyts/network.py:UDigraph.load_memory", "src/unyts/__init__.py:save", "src/unyts/__init__.py:load"]}
{"id": "C59", "title": "A built-in conversion and the one back undo each other", "statement": "Whenever the shipped network converts directly from a to b and directly from b to a, converting a number there and back gives the number.", "quantifier": "every pair of units of the shipped network, every number, every formation volume factor but 0", "why_tests_cant": "Thousands of pairs, all numbers.", "anchors": ["src/unyts/database.py:_load_network", "src/unyts/network.py:Conversion"]}
{"id": "C60", "title": "The shipped data load", "statement": "Loading the shipped dictionary raises nothing and gives a network with one node per name whose conversions all lead to nodes of the network; so does any dictionary with the documented shape.", "quantifier": "every dictionary of the documented shape", "why_tests_cant": "The loader's loops run over dictionaries of any size.", "anchors": ["src/unyts/database.py:_load_network", "src/unyts/database.py:_clean_network", "src/unyts/dictionaries.py:_load_dictionary"]}
{"id": "C61", "title": "Built-in conversions do not depend on the path", "statement": "Converting along any two chains of built-in conversions between the same two units gives the same number, and a chain there followed by a chain back gives the number one started with.", "quantifier": "every pair of chains of any length, every number", "why_tests_cant": "Unboundedly many chains.", "anchors": ["src/unyts/database.py:_load_network"]}
{"id": "C62", "title": "What can be converted can be converted back", "statement": "If the shipped network converts from a to b through some chain, it converts from b to a through some chain.", "quantifier": "every pair of units of the shipped network", "why_tests_cant": "All pairs and chains.", "anchors": ["src/unyts/database.py:_load_network"]}
{"id": "C63", "title": "Different quantities are never converted into each other", "statement": "No chain of built-in conversions leads from a unit of one quantity to a unit of another.", "quantifier": "every pair of units of kinds of different quantities, every chain", "why_tests_cant": "All pairs and chains.", "anchors": ["src/unyts/database.py:_load_network", "src/unyts/dictionaries.py:_load_dictionary"]}
{"id": "C64", "title": "Built-in units convert consistently through convert", "statement": "With the shipped units, convert there and back returns the number one started with, converting through an intermediate unit gives what converting directly gives, and the answer does not depend on the algorithm, the cache or the calls made before.", "quantifier": "every pair or triple of built-in units, every value, every history of calls, every algorithm", "why_tests_cant": "All histories over a network of 2600 names.", "anchors": ["src/unyts/converter.py:convert", "src/unyts/database.py:_load_network"]}
{"id": "C65", "title": "Products have the right amount", "statement": "The product of two quantities of simple units denotes the product of the amounts: expressed in the square of the first unit when the units convert into each other, in the product of the two units otherwise.", "quantifier": "every pair of quantities of simple units, every state of the library", "why_tests_cant": "All values, units and networks.", "anchors": ["src/unyts/unit_class.py:Unit.__mul__", "src/unyts/operations.py:unit_product"]}
{"id": "C66", "title": "Floor division and remainder belong together", "statement": "For d = p // q and m = p % q of quantities of one kind, d is a whole number, d times q plus m is p, and m has the sign of q and is smaller; units that do not convert are refused.", "quantifier": "every pair of quantities", "why_tests_cant": "All values, signs and units.", "anchors": ["src/unyts/unit_class.py:Unit.__floordiv__", "src/unyts/unit_class.py:Unit.__mod__"]}
{"id": "C67", "title": "Dividing a quantity by a number keeps its class and unit", "statement": "q / x is a quantity of the class and unit of q with the number divided.", "quantifier": "every quantity and number, every dictionary", "why_tests_cant": "All units of all dictionaries.", "anchors": ["src/unyts/unit_class.py:Unit.__truediv__", "src/unyts/units/define.py:units"]}
{"id": "C68", "title": "Results are quantities their class accepts", "statement": "Whatever arithmetic operation on quantities or numbers returns a quantity, the unit of that quantity is one that its class accepts, so that it can be rebuilt from its value and unit.", "quantifier": "every quantity, number, operation and state of the library", "why_tests_cant": "All operations on all states.", "anchors": ["src/unyts/unit_class.py", "src/unyts/units/define.py:units", "src/unyts/units/unitless.py", "src/unyts/units/custom.py:UserUnits"]}
{"id": "C69", "title": "convert_for_SimPandas converts or gives the value back", "statement": "convert_for_SimPandas(v, a, b) is what convert(v, a, b) gives when the units are convertible and v otherwise.", "quantifier": "every state, pair of units and value", "why_tests_cant": "Depends on the history of searches.", "anchors": ["src/unyts/converter.py:convert_for_SimPandas"]}
{"id": "C70", "title": "raise_error only decides between None and the exception", "statement": "With raise_error on convert never returns None; where it returns None with raise_error off it raises NoConversionFoundError with it on, and all other results are the same.", "quantifier": "every state, units and value", "why_tests_cant": "All states and units.", "anchors": ["src/unyts/converter.py:convert", "src/unyts/parameters.py:UnytsParameters.raise_error"]}
{"id": "C71", "title": "Ratios and products of units convert by their sizes", "statement": "Whenever convert answers a number for two units of the same dimension (single names, ratios or products), the number is the value times the ratio of the sizes of the units, after any history of calls.", "quantifier": "every pair of units of one dimension, every value, every history of calls, every algorithm and cache setting, every network whose own conversions respect the sizes", "why_tests_cant": "All unit expressions and histories; the answer may come from a path of names, from matching parts, from a pair child or from common descendants, whichever is found first.", "anchors": ["src/unyts/converter.py:convert", "src/unyts/converter.py:_converter", "src/unyts/converter.py:_get_conversion", "src/unyts/converter.py:_get_pair_child", "src/unyts/converter.py:_get_descendants"]}
{"id": "C72", "title": "Subtracting quantities", "statement": "Subtracting two quantities of the same kind yields the amount of the first minus the amount of the second.", "quantifier": "every pair of quantities of a kind, every network of proportional units", "why_tests_cant": "All values and units.", "anchors": ["src/unyts/unit_class.py:Unit.__sub__"]}
{"id": "C73", "title": "What has been converted is convertible", "statement": "When convert(1, a, b) returned a number, convertible(a, b) called next says True.", "quantifier": "every state with the cache in use, every pair of units", "why_tests_cant": "Depends on the state the conversion leaves.", "anchors": ["src/unyts/converter.py:convert", "src/unyts/converter.py:convertible"]}
{"id": "C74", "title": "The ratio of like quantities is a plain number", "statement": "The ratio of two quantities whose units convert into each other is the ratio of their amounts, and it is a number without unit.", "quantifier": "every pair of quantities of convertible units", "why_tests_cant": "All values and units.", "anchors": ["src/unyts/unit_class.py:Unit.__truediv__", "src/unyts/operations.py:unit_division"]}
{"id": "C75", "title": "Arithmetic leaves the library as it is", "statement": "No operation on quantities, successful or not, changes the network, the settings or the units of any class, except that new names of the user's units are remembered.", "quantifier": "every operation, operand and state", "why_tests_cant": "All operations on all states.", "anchors": ["src/unyts/unit_class.py", "src/unyts/units/define.py:units", "src/unyts/units/custom.py:UserUnits"]}
{"id": "C76", "title": "Built-in units have their standard size", "statement": "Between built-in units whose sizes are defined by a standard, convert answers the number times the ratio of the sizes, whatever was converted before.", "quantifier": "every pair of listed units of one quantity, every value, every history of calls, every algorithm", "why_tests_cant": "The path the search takes depends on the history, the algorithm and the whole network.", "anchors": ["src/unyts/converter.py:convert", "src/unyts/database.py:_load_network", "src/unyts/dictionaries.py:_load_dictionary"]}
{"id": "C77", "title": "Decimals and exponents are read exactly", "statement": "to_number of an optional sign, digits, a decimal mark, digits and an exponent is the rational number it denotes.", "quantifier": "every number of digits, every exponent", "why_tests_cant": "Unbounded strings.", "anchors": ["src/unyts/helpers/caster.py:to_number"]}
{"id": "C78", "title": "is_unit knows the built-in units", "statement": "Right after the import is_unit accepts every built-in unit, every ratio and product of built-in units that forms a quantity, and every product and quotient of built-in names; of strings without signs it accepts nothing else.", "quantifier": "every string; the built-in names (thousands, most of them generated) and all their compounds", "why_tests_cant": "The names are generated by the loader and their compounds are unbounded.", "anchors": ["src/unyts/helpers/is_unit.py:is_unit", "src/unyts/database.py:_load_network", "src/unyts/dictionaries.py:dictionary"]}
{"id": "C79", "title": "The dictionary lists the units of every quantity and nothing else", "statement": "After the import, dictionary[k] lists exactly the built-in units of the quantity k, the ratios and products of built-in units that form that quantity (volume per time, pressure per length, ...), and those products in the other order. The same relation holds for any dictionary of basic units.", "quantifier": "every quantity, every string, every dictionary of basic units", "why_tests_cant": "Quadratic and cubic numbers of generated names; all dictionaries.", "anchors": ["src/unyts/database.py:_load_network", "src/unyts/database.py:_complete_products", "src/unyts/database.py:_create_Rates", "src/unyts/database.py:_create_Density"]}
{"id": "C80", "title": "A unit belongs to one quantity", "statement": "No built-in name is a unit of two quantities, and a ratio of two built-in names is listed under one quantity only.", "quantifier": "every built-in name and every ratio of two", "why_tests_cant": "Thousands of generated names and all their pairs.", "anchors": ["src/unyts/dictionaries.py:dictionary", "src/unyts/database.py:_load_network"]}
{"id": "C81", "title": "units gives the quantity its class", "statement": "units(v, u) of a built-in unit of the quantity q, or of a ratio a/b of built-in units whose quotient is the quantity q, is an instance of the class of q with value v and unit u, and making it changes nothing in the library.", "quantifier": "every built-in name, every ratio of two, every number", "why_tests_cant": "Thousands of generated names and all their pairs.", "anchors": ["src/unyts/units/define.py:units", "src/unyts/units/geometry.py:Length", "src/unyts/dictionaries.py:dictionary"]}
{"id": "C82", "title": "Powers and inverses", "statement": "q ** n raises the number of q to n and its unit to the power n; the square is q * q; x / q divides the number and inverts the unit; q ** 0 is a plain number; zero to a negative power is an error.", "quantifier": "every quantity, unit, exponent and state of the library", "why_tests_cant": "All numbers, exponents and units.", "anchors": ["src/unyts/unit_class.py:Unit.__pow__", "src/unyts/unit_class.py:Unit.__rtruediv__", "src/unyts/operations.py:unit_base_power"]}
{"id": "C83", "title": "p @ q divides without converting", "statement": "p @ q divides the numbers as they are and has the reduced unit of p over q, whose dimension is that of p divided by that of q; q @ x with a number keeps class and unit; dividing by zero is an error.", "quantifier": "every pair of quantities, every number, every state", "why_tests_cant": "All units and numbers.", "anchors": ["src/unyts/unit_class.py:Unit.__matmul__", "src/unyts/helpers/unit_string_tools.py:reduce_units"]}
{"id": "C84", "title": "Rounding", "statement": "q.round(n) and round(q, n) show the nearest number with n decimals (q.round(-n): with n significant digits), halves to even, in the same unit; rounding again changes nothing.", "quantifier": "every quantity, number and precision", "why_tests_cant": "All numbers.", "anchors": ["src/unyts/unit_class.py:Unit.round", "src/unyts/unit_class.py:Unit.__round__"]}
{"id": "C85", "title": "equals compares amounts up to rounding", "statement": "p.equals(q, n) is True exactly if the amounts of p and q in the unit of p agree when rounded to n; equal amounts are always equal, and quantities that are equal to n decimals differ by at most one unit of the last decimal; without n it compares exactly.", "quantifier": "every pair of quantities, every precision, every state", "why_tests_cant": "All numbers and units.", "anchors": ["src/unyts/unit_class.py:Unit.equals", "src/unyts/unit_class.py:Unit.eq"]}
{"id": "C86", "title": "Laws of energy and electricity", "statement": "Power times time is an energy, current times resistance a voltage, voltage times current a power, capacitance times voltage a charge, and the quotients accordingly: the result has the class and unit of the law and the amount of the product or quotient, whatever the units of the operands; no other product is affected.", "quantifier": "every pair of quantities of these classes, every state", "why_tests_cant": "All numbers, units and histories.", "anchors": ["src/unyts/units/energy.py:Power.__mul__", "src/unyts/units/energy.py:Energy.__truediv__", "src/unyts/units/energy.py:Voltage.__mul__", "src/unyts/units/time.py:Time.__mul__"]}
{"id": "C87", "title": "Units of one quantity convert into each other", "statement": "Any two built-in units of one quantity are joined by a chain of built-in conversions.", "quantifier": "every quantity and every pair of its units", "why_tests_cant": "Thousands of generated names; the chains run through the whole network.", "anchors": ["src/unyts/database.py:_load_network", "src/unyts/dictionaries.py:_load_dictionary"]}
{"id": "C88", "title": "convert finds every conversion there is", "statement": "After the import and any conversions and questions, convert answers a number for two built-in units exactly when a chain of built-in conversions joins them, and convertible says so.", "quantifier": "every pair of names, every value, every history of calls, every search algorithm but DFS, every setting of the cache", "why_tests_cant": "The screening, the cache and the memory of failed searches all depend on the history.", "anchors": ["src/unyts/converter.py:convert", "src/unyts/converter.py:_converter", "src/unyts/converter.py:convertible", "src/unyts/searches.py:lean_BFS", "src/unyts/searches.py:hybrid_BFS", "src/unyts/network.py:UDigraph"]}
{"id": "C89", "title": "convert refuses units of different quantities", "statement": "convert never answers a number for two built-in units of different quantities, whatever was done before.", "quantifier": "every pair of units of different quantities, every value, every history", "why_tests_cant": "All pairs and histories.", "anchors": ["src/unyts/converter.py:convert", "src/unyts/database.py:_load_network"]}
{"id": "C90", "title": "Metric prefixes through convert", "statement": "After the import, whatever was asked before, convert between two metric prefixes of a unit, or between a prefix and none, multiplies by the quotient of the powers of ten, raised to the order of the unit.", "quantifier": "every prefix, every prefixed unit, every number, every history of calls", "why_tests_cant": "All units, values and histories.", "anchors": ["src/unyts/converter.py:convert", "src/unyts/database.py:_load_network", "src/unyts/dictionaries.py:SI"]}
{"id": "C91", "title": "Temperatures are absolute temperatures", "statement": "After the import, whatever was asked before, convert between any two names of temperature scales answers, and the answer is as far above absolute zero in kelvins as the number given.", "quantifier": "every pair of names of Celsius, Kelvin, Fahrenheit and Rankine, every number, every history of calls", "why_tests_cant": "The path the search takes depends on the history and the algorithm.", "anchors": ["src/unyts/converter.py:convert", "src/unyts/database.py:_load_network"]}
{"id": "C92", "title": "The path shown is the path taken", "statement": "When convert answers for two single names, the text it leaves in last_path_str (and logs when print_path is on) lists, joined by arrows, a chain of direct conversions from the first unit to the second without repetitions, and the answer is what those conversions give one after the other; looking at the path does not change the answer.", "quantifier": "every state, pair of names and value", "why_tests_cant": "The path depends on the algorithm, the network and the history.", "anchors": ["src/unyts/searches.py:print_path", "src/unyts/converter.py:convert", "src/unyts/parameters.py:UnytsParameters.print_path"]}
{"id": "C93", "title": "Weights convert by their sizes", "statement": "Built-in weights convert into each other by their standard sizes (gram, pound, ounce, stone, hundredweight, tons) exactly, and there and back to the same number, although volumes and weights share the ounce and the volumes contradict each other; no formation volume factor is needed.", "quantifier": "every pair of weights, every value, every history of conversions", "why_tests_cant": "The path between two weights depends on the algorithm and on what was asked before; only a proof that no path leaves the weights rules the volumes out.", "anchors": ["src/unyts/database.py:network_conversions", "src/unyts/converter.py:convert", "src/unyts/searches.py:lean_BFS"]}
{"id": "C94", "title": "A direct conversion is never bypassed", "statement": "When the network holds a direct conversion between two units, `convert` applies that one and no detour through other units, even if the detour would give another number; more generally it goes from unit to unit by as few direct conversions as possible.", "quantifier": "every network, every two linked units, every value, every history of conversions and questions, every setting of the cache, every search but DFS", "why_tests_cant": "Which chain of conversions is used depends on the order of the edges, the algorithm, the memory and the whole network.", "anchors": ["src/unyts/searches.py:BFS", "src/unyts/searches.py:lean_BFS", "src/unyts/searches.py:hybrid_BFS", "src/unyts/converter.py:convert"]}
{"id": "C95", "title": "Absolute pressures convert by their sizes", "statement": "Built-in pressures that are not gauge pressures convert by their sizes (pascal, bar, atmosphere, torr and their multiples exactly, psi to ten digits), there and back to the same number and through a third one to the same number, although gauge pressures share the network with them and 'psi' and 'bar' are linked to both.", "quantifier": "every pair or triple of such pressures, every value, every history of conversions", "why_tests_cant": "The network contradicts itself: going through a gauge pressure adds an atmosphere. Only a proof that no chain of conversions used passes through them rules it out.", "anchors": ["src/unyts/database.py:network_conversions", "src/unyts/converter.py:convert", "src/unyts/searches.py:lean_BFS"]}
{"id": "C96", "title": "Ratios and products of built-in units convert by their sizes", "statement": "After the import, whatever single units were asked for before (or without the cache, whatever was asked at all), convert from a ratio or product of units to another whose factors measure, one by one, the same quantities, answers the value times the product of the conversions of the factors, inverted for the denominators: for units of length, time, area, energy, data, velocity, force, pressure and weight with a standard size, the exact quotient of the sizes.", "quantifier": "every ratio and product of any number of factors, every value, every history of conversions", "why_tests_cant": "The number of factors is unbounded, and the parts are converted one after the other in states that depend on everything before.", "anchors": ["src/unyts/converter.py:convert", "src/unyts/converter.py:_converter", "src/unyts/converter.py:_get_conversion"]}
{"id": "C97", "title": "Programs with quantities compute amounts", "statement": "A program that builds quantities of one class with units(), adds and subtracts them, negates, takes absolute values, changes units with to(), and adds, subtracts, multiplies or divides by numbers gives a quantity of that class, in the unit of its first operand, whose amount is the one obtained by hand from the sizes of the units; comparisons of two such results compare the amounts; running a program never disturbs the programs that follow.", "quantifier": "every program of any length, every choice of units of the class, every number, every history of conversions and questions before", "why_tests_cant": "Programs are unbounded and every operation asks the converter, whose memory and notes of failed searches change at every step.", "anchors": ["src/unyts/unit_class.py:Unit.__add__", "src/unyts/unit_class.py:Unit.__sub__", "src/unyts/unit_class.py:Unit.convert", "src/unyts/unit_class.py:Unit.__lt__", "src/unyts/units/define.py:units", "src/unyts/converter.py:convertible", "src/unyts/converter.py:convert"]}
{"id": "C98", "title": "A quantity can stand for its number and unit in convert", "statement": "convert(q, u) of a quantity q is the number of q.to(u), by the sizes of the two units; wherever a unit is asked for (convert, convertible, q.to) another quantity can be given, which counts as its unit whatever its number; a number with only one unit, or a quantity with none, is a TypeError and changes nothing.", "quantifier": "every quantity, every pair of units of its class, given as text or as quantities, every history of conversions and questions before", "why_tests_cant": "The arguments are rearranged by type before the conversion, which asks a converter with memory; a test fixes types, units and history.", "anchors": ["src/unyts/converter.py:_clean_input", "src/unyts/converter.py:convert", "src/unyts/converter.py:convertible", "src/unyts/unit_class.py:Unit.convert", "src/unyts/unit_class.py:Unit.get_value"]}
{"id": "C99", "title": "units() and the constructors respect a quantity given as a value", "statement": "units(q) of a quantity q is an equal quantity of the same class and unit; a quantity with a second unit is refused or converted, never relabelled; a number without a unit is a dimensionless quantity; none of this changes the library.", "quantifier": "every quantity of every built-in unit, every number, every state of the dictionary", "why_tests_cant": "The result depends on the dictionary of all classes and on how each class stores its number.", "anchors": ["src/unyts/units/define.py:units", "src/unyts/unit_class.py:Unit.__init__", "src/unyts/unit_class.py:Unit.check_value", "src/unyts/units/unitless.py:Percentage"]}
{"id": "C100", "title": "Products and quotients of built-in quantities compute with the amounts", "statement": "units(x,a) / units(y,b) and units(x,a) * units(y,b) hold the quotient or product of the numbers in the unit a/b or a*b when the two units are not convertible, the quotient has the class that is the ratio of the two classes where there is one, and division by zero is refused; when the units are convertible, the product is the product of the amounts in the square of the first unit and the quotient is the ratio of the amounts.", "quantifier": "every pair of built-in units of the shipped library, every pair of numbers, every history of conversions and questions before", "why_tests_cant": "Each of the thousands of pairs of names takes its own path through convertible, convert, unit_product and the dictionary, and the answers depend on the caches that earlier calls filled.", "anchors": ["src/unyts/unit_class.py:Unit.__mul__", "src/unyts/unit_class.py:Unit.__truediv__", "src/unyts/unit_class.py:Unit.__floordiv__", "src/unyts/operations.py:unit_product", "src/unyts/operations.py:unit_division", "src/unyts/units/define.py:units"]}
{"id": "C101", "title": "Quantities whose unit is a ratio convert by the sizes of the units in it", "statement": "units(x,'a/b').to('c/d') of a velocity, rate, power, pressure or gradient is x times the ratio of the sizes of a and c divided by the ratio of the sizes of b and d, also for a quotient of two quantities, and convertible says yes about the two units; the answer does not depend on what was asked before.", "quantifier": "every pair of ratios of built-in units with a standard size, every number, every history of questions", "why_tests_cant": "The ratios are built from all pairs of names, and the converter leaves a trace of every pair it tried, so the answer to one call depends on all calls before.", "anchors": ["src/unyts/unit_class.py:Unit.to", "src/unyts/converter.py:_converter", "src/unyts/converter.py:convertible", "src/unyts/converter.py:convert", "src/unyts/units/define.py:units"]}
{"id": "C102", "title": "Volumes convert by their sizes", "statement": "Built-in volumes (metric, US, field units with their prefixes, at standard conditions or not) convert into each other by their sizes to one part in a million although the library's factors for the barrel are rounded and the network offers several routes; volumes at reservoir conditions likewise, without a formation volume factor; between the two a volume shrinks or swells by the formation volume factor. convertible says yes.", "quantifier": "every pair of the listed names, every number, every history of calls, every search algorithm and cache setting, every formation volume factor", "why_tests_cant": "The route depends on the algorithm and on what was converted before; all routes through hundreds of units.", "anchors": ["src/unyts/converter.py:convert", "src/unyts/database.py:_load_network", "src/unyts/database.py:set_fvf"]}
{"id": "C103", "title": "Rates and other ratios with volumes convert by the sizes of their factors", "statement": "Barrels or cubic feet per day, productivity indices and any ratio or product whose factors are volumes, pressures or units with a standard size convert by the sizes of the factors, to one part in a million for each volume or psi in it, and shrink or swell by the formation volume factor between reservoir and stock tank conditions, for numbers, for quantities and for the quotient of two quantities; the answer does not depend on what was asked before.", "quantifier": "every ratio and product of any number of factors, every value, every history of questions, every formation volume factor", "why_tests_cant": "The factors are converted one after the other by routes that depend on everything asked before, and the rounding errors of the library add up over an unbounded number of factors.", "anchors": ["src/unyts/converter.py:convert", "src/unyts/converter.py:_converter", "src/unyts/converter.py:convertible", "src/unyts/unit_class.py:Unit.to", "src/unyts/database.py:_load_network"]}
{"id": "C104", "title": "Spellings of one unit are interchangeable", "statement": "The other names of a unit, its capitals, small letters, blanks replaced and plurals are all the same unit: converting between two spellings leaves the number unchanged, convertible says yes, and a computation that mixes spellings gives the same amount as one that does not.", "quantifier": "all pairs of spellings of one unit the shipped tables give, directly or through others; all amounts, programs, settings and histories of questions", "why_tests_cant": "Hundreds of spellings generated from flags in the table keys; a spelling attached to the wrong unit gives a number, not an error.", "anchors": ["src/unyts/dictionaries.py:SI", "src/unyts/database.py:_load_dictionary", "src/unyts/converter.py:convert", "src/unyts/units/unit_class.py:Unit"]}
{"id": "C105", "title": "The ready-made constants are one of the unit they name", "statement": "After `from unyts.unitary import mile` the constant is a quantity of the right class with value one in the right unit, for every constant of the module; importing the module changes nothing else; converted to the unit of its own name its value is one.", "quantifier": "every constant of the module, every library with the shipped dictionary, every history of questions before the conversion", "why_tests_cant": "The constants are computed by the same look-ups as any quantity; a name that belongs to two quantities would silently change class.", "anchors": ["src/unyts/unitary.py", "src/unyts/units/define.py:units"]}
{"id": "C106", "title": "Names that are products or ratios convert as whole names first", "statement": "A product or ratio that is itself a name of the library ('kW*h', 'J/s', 'stb/day/psi') is converted as a name whenever the network joins it with the wanted unit, and its parts are not looked at: when the two names convert directly into each other the answer is the direct conversion, with one unit between them a path of at most two conversions, and with BFS or hybrid_BFS any path; so `convert(x, a, b)` is x times the size of a over the size of b for the compound names of power, energy, voltage, current, resistance, charge, frequency, velocity, viscosity, force, rates, productivity indices and compressibilities.", "quantifier": "every network, every clean pair of names, products and ratios included, every amount, every history of questions; then every pair of the listed names on the shipped library", "why_tests_cant": "the answer depends on which way of conversion is met first in a graph of 2608 names and on the memory of earlier questions", "anchors": ["src/unyts/converter.py:convert", "src/unyts/converter.py:_get_conversion", "src/unyts/searches.py:lean_BFS", "src/unyts/dictionaries.py:_load_dictionary", "src/unyts/database.py:_load_network"]}
{"id": "C107", "title": "A sum of unlike quantities keeps its terms", "statement": "Adding quantities of different classes gives a tuple with the terms, in order and unchanged; adding one more quantity to the tuple adds it to the entry of its class, or appends it, and keeps every other entry.", "quantifier": "every number of quantities of pairwise different classes, every state of the library", "why_tests_cant": "The result depends on the classes already in the tuple, for tuples of any length.", "anchors": ["src/unyts/unit_class.py:Unit.__add__", "src/unyts/unit_class.py:Unit.__radd__", "src/unyts/unit_class.py:Unit.__sub__"]}
{"id": "C108", "title": "`sum` of quantities is the sum of the amounts", "statement": "`sum` of a list of quantities of one class is a quantity of that class in the unit of the first, worth the sum of the amounts; in another order it is the same amount.", "quantifier": "every list of quantities, every order, every history of the library", "why_tests_cant": "Lists are of any length and mix units in any order; each addition converts and may change what the library remembers.", "anchors": ["src/unyts/unit_class.py:Unit.__radd__", "src/unyts/unit_class.py:Unit.__add__"]}
{"id": "C109", "title": "`max`, `min` and `sorted` go by amounts", "statement": "`max`, `min` and `sorted` on quantities of one class order by amount whatever the units are: `sorted` gives a permutation with growing amounts, `max` and `min` an element of the list that no other exceeds.", "quantifier": "every list of quantities, every history of the library", "why_tests_cant": "The comparisons convert between units one pair at a time, for lists of any length.", "anchors": ["src/unyts/unit_class.py:Unit.__lt__", "src/unyts/unit_class.py:Unit.__gt__"]}
{"id": "C110", "title": "The window recognises number and unit in either box", "statement": "In the window a number and a unit typed in the two boxes of a row are recognised whichever box each of them is in, with or without spaces around, and the row is rewritten with the unit first; what is not understood is reported in the row.", "quantifier": "every text in the boxes, every way of reading numbers", "why_tests_cant": "The boxes take any text.", "anchors": ["src/unyts/gui.py:UnytsApp._get_from", "src/unyts/gui.py:UnytsApp._get_to"]}
{"id": "C111", "title": "The button shows what `convert` answers", "statement": "Pressing the button never raises; it calls `convert` once at most and does nothing else to the library; with a number and a unit in the first row and a unit in the second it shows the result of `convert` in the second row and keeps the first; with the number in the second row only it converts back; when there is no conversion the old result is removed and the window says so. On the shipped library the number shown is the same amount, and deleting the first number and pressing again brings it back.", "quantifier": "every text in the boxes, every state of the library, every history of questions", "why_tests_cant": "The texts, the state of the library and the order of presses are unbounded, and the two directions call each other.", "anchors": ["src/unyts/gui.py:UnytsApp._calculate", "src/unyts/gui.py:UnytsApp._rcalculate"]}
{"id": "C112", "title": "The dialogs set the constant the user typed, or nothing", "statement": "The dialogs for the formation volume factor and the density take a positive number, or a number with a unit that is converted, and store it in the converter and in the settings; they ask again after anything else; cancelling leaves everything as it was.", "quantifier": "every sequence of answers, every state of the library", "why_tests_cant": "Any number of refused answers may come first, and each may call the converter.", "anchors": ["src/unyts/gui.py:start_gui"]}
{"id": "C113", "title": "The elapsed time shown is right", "statement": "The time the window shows for a search is the elapsed time, up to rounding.", "quantifier": "every elapsed time", "why_tests_cant": "Times are any number.", "anchors": ["src/unyts/gui.py:UnytsApp._calculation_time"]}
{"id": "C114", "title": "The moving text shows the whole path", "statement": "A path too long for the line moves to and fro, always 53 neighbouring characters of it, and every character is shown; a short path is shown whole.", "quantifier": "every path, every number of steps of the movement", "why_tests_cant": "Paths are of any length and the movement never ends.", "anchors": ["src/unyts/gui.py:UnytsApp._partial_msg", "src/unyts/gui.py:UnytsApp._display_path"]}
{"id": "C115", "title": "A date plus a time is the date that much later", "statement": "Adding a quantity of time to a date gives the date that much later, subtracting it the date that much earlier; adding and taking away again gives the same moment, times may be added in any order; the difference of two dates is the time between them and dates can be compared.", "quantifier": "every date, every time unit, every number, every sequence of additions", "why_tests_cant": "Dates and times have different units and resolutions, and the results are rebuilt at the finer of the two.", "anchors": ["src/unyts/units/date.py:Date.__add__", "src/unyts/units/date.py:Date.__sub__"]}
{"id": "C116", "title": "Temperatures behave as temperatures", "statement": "A quantity of temperature changed to another scale (with its offset) is the same temperature, also after any number of changes, and back in its own scale it is the same number; comparisons, max, min and sorted of temperatures in different scales go by the temperatures; the sum of two temperatures does not depend on their order.", "quantifier": "every temperature in every scale and spelling, every list of them, every sequence of changes, every history of conversions and questions before", "why_tests_cant": "The scales have different zeros, so a conversion that merely scales passes many tests; every operation asks a converter with memory.", "anchors": ["src/unyts/unit_class.py:Unit.convert", "src/unyts/unit_class.py:Unit.__lt__", "src/unyts/unit_class.py:Unit.__add__", "src/unyts/units/temperature.py:Temperature", "src/unyts/converter.py:convert"]}
{"id": "C117", "title": "An array converts element by element", "statement": "Converting an array from one unit to another gives the array of the numbers that converting each element gives, and leaves the library as converting one element does; it fails when, and only when, converting some element fails; with the cache in use the elements may be converted one after the other.", "quantifier": "every array of any length, every pair of units (simple, compound, unknown), every state of the library, every cache setting", "why_tests_cant": "The value is handed through a recursive search, products and ratios, densities and the cache; each has its own branch for a value and for None.", "anchors": ["src/unyts/converter.py:convert", "src/unyts/converter.py:_converter", "src/unyts/converter.py:_apply_conversion", "src/unyts/converter.py:_density_conversion"]}
{"id": "C118", "title": "Quantities with arrays compute element by element", "statement": "A computation with quantities that hold arrays (sums, differences, changes of unit, signs, operations with numbers, comparisons) gives the quantity whose elements are what the same computation gives on the elements; q[i] is the quantity of the element, also counted from the end; arrays of different lengths are refused unless one has a single element; on the shipped library the elements have the exact amounts.", "quantifier": "every computation of any depth, every array of any length, every unit and state of the library; for the amounts every history of conversions and questions before", "why_tests_cant": "Each operator converts the second operand, builds the result through a constructor with its own treatment of percentages, and may build it in either unit.", "anchors": ["src/unyts/unit_class.py:Unit.__getitem__", "src/unyts/unit_class.py:Unit.__add__", "src/unyts/unit_class.py:Unit.convert", "src/unyts/unit_class.py:Unit.__len__", "src/unyts/unit_class.py:Unit.__iter__", "src/unyts/units/define.py:units"]}
{"id": "C119", "title": "The density set is the density used", "statement": "set_density stores the number it is given in g/cm3, converting a number in another unit or a Density quantity; it raises and keeps the density when the argument is no number or no density, or there is no conversion, and changes nothing else. get_density gives the number back, and can be fed back to set_density. From then on a volume converts to the weight that density gives it, until another density is set.", "quantifier": "every argument, every unit, every state of the library; for the amounts every pair of a volume and a weight and every history of questions after the setting", "why_tests_cant": "Setting converts with the same converter whose results depend on the density; whether the number stored and the number used agree depends on the path the library finds for each pair of units.", "anchors": ["src/unyts/parameters.py:set_density", "src/unyts/parameters.py:get_density", "src/unyts/converter.py:_converter"]}
{"id": "C120", "title": "The formation volume factor set is the one used", "statement": "set_fvf(b), with a number or a text that is one, makes reservoir volumes convert to stock tank volumes by b and back, whatever was converted before, and changes nothing else; get_fvf gives it back to four decimals; what is no number is refused.", "quantifier": "every argument, every state of the library, every pair of a reservoir and a stock tank unit, every history of questions", "why_tests_cant": "Remembered conversions hold the function that was composed when the factor was another; that every one of them reads the new factor is a statement about all histories.", "anchors": ["src/unyts/database.py:set_fvf", "src/unyts/database.py:get_fvf", "src/unyts/network.py:UDigraph.set_fvf", "src/unyts/network.py:UDigraph.get_fvf"]}
{"id": "C121", "title": "The menus of the window show the settings in use", "statement": "start_gui() opens whatever was set before; then, after any clicks, exactly the algorithm in use is ticked, 'Use cache', 'Verbose', 'Show conversion path', 'Rebuild on next start' and the parallel entries are ticked when they are on, a click on an algorithm puts it in use, here and in the next process, and changing the algorithm ticks 'repeat search' until a conversion is answered or the user unticks it.", "quantifier": "every settings file, every session of setting calls before the window is opened, every sequence of clicks", "why_tests_cant": "Histories of calls and clicks: the ticks are separate variables kept in step with the settings by each command, so a drift shows only after some sequences.", "anchors": ["src/unyts/gui.py:start_gui", "src/unyts/parameters.py:UnytsParameters.set_algorithm", "src/unyts/parameters.py:UnytsParameters.set_parallel", "src/unyts/parameters.py:UnytsParameters.cache"]}
{"id": "C122", "title": "The text of a quantity tells its number and its unit", "statement": "str(units(v, u)) is the number v, an underscore and the unit, percentages included; two quantities with the same text have the same number and unit; units() of the two parts of the text makes the same quantity again.", "quantifier": "every number, every unit name, listed or not, without backslash, line end or both kinds of quotes, every state of the library", "why_tests_cant": "All names and states; the second use of a user unit takes another path of units() than the first.", "anchors": ["src/unyts/unit_class.py:Unit.__str__", "src/unyts/unit_class.py:Unit.__repr__", "src/unyts/units/unitless.py:Percentage.__str__", "src/unyts/units/define.py:units"]}
{"id": "C123", "title": "Assigning to a field keeps the quantity well formed", "statement": "After q.values = x the quantity shows x in the same unit, after q.units = u it shows the same number in the unit u, and its class accepts its unit.", "quantifier": "every quantity, number and name", "why_tests_cant": "All names and classes.", "anchors": ["src/unyts/unit_class.py:Unit.units", "src/unyts/unit_class.py:Unit.values"]}
{"id": "C124", "title": "Numbers with separators and decimals are read exactly", "statement": "to_number of an integer with a separator of thousands, a decimal mark and decimals, with the two signs given or found by to_number, with or without a minus or parentheses, is the number it denotes; a group that is not of three digits is refused.", "quantifier": "every natural number, every string of decimals, every pair of signs, every way of giving them", "why_tests_cant": "All numbers and all pairs of signs.", "anchors": ["src/unyts/helpers/caster.py:to_number", "src/unyts/helpers/caster.py:caster"]}
{"id": "C125", "title": "The arguments of set_conversion", "statement": "set_conversion refuses with a TypeError, changing nothing, exactly a unit that is neither text nor a quantity and a conversion or reverse that can be subscripted and not called; a quantity stands for its unit; what it accepts adds the two directions where there was no direct conversion and changes nothing else; a number given as the conversion is accepted and makes every later conversion between the two units a TypeError.", "quantifier": "every state of the library, every argument, every number converted afterwards", "why_tests_cant": "Every state and every conversion function; the late refusal shows only in calls after the one that was wrong.", "anchors": ["src/unyts/units/custom.py:set_conversion", "src/unyts/network.py:UDigraph.add_edge", "src/unyts/network.py:Conversion.get_convert", "src/unyts/converter.py:convert"]}
{"id": "C126", "title": "The searches made in the window are there when it is opened again", "statement": "When the window is closed with the cache on and opened again after any starts of the library, ended or killed at any point, and any change of settings, it knows every search it knew, unless a reload was asked for; after a start that ended the next one has the memory on; a memory exported by one process and imported by another is known there.", "quantifier": "every content of the memory, every state of the files, every sequence of starts, crash points and settings between closing and opening", "why_tests_cant": "Crashes between any two writes and any combination of files and settings.", "anchors": ["src/unyts/gui.py:start_gui", "src/unyts/gui.py:close_gui", "src/unyts/gui.py:export_memory", "src/unyts/gui.py:load_memory_file", "src/unyts/database.py:delete_cache", "src/unyts/network.py:UDigraph.save_memory", "src/unyts/network.py:UDigraph.load_memory", "src/unyts/parameters.py:UnytsParameters"]}
{"id": "C127", "title": "A unit that is only named converts to nothing", "statement": "A name for which no conversion was ever defined, new or declared with set_unit, converts to no other unit and no other unit converts to it: convertible says False and convert raises NoConversionFound, or returns None with raise_error off, after any calls that define no conversion for it.", "quantifier": "every state a session leaves, every name, every other unit, every number, every further history of calls that define no conversion for the name", "why_tests_cant": "Every history of conversions, questions, new units and conversions between other units, and every network.", "anchors": ["src/unyts/units/custom.py:set_unit", "src/unyts/units/custom.py:set_conversion", "src/unyts/converter.py:convert", "src/unyts/converter.py:convertible", "src/unyts/searches.py:BFS", "src/unyts/searches.py:lean_BFS", "src/unyts/searches.py:hybrid_BFS"]}
{"id": "C128", "title": "Calculations with fractions and percentages give the right number", "statement": "Any calculation with fractions and percentages (units(x, '%'), changes between the names of fractions and percentages with to, negation, abs, sums, differences, products and quotients with numbers on either side and with each other) gives a quantity in the unit of its first operand that shows the number the arithmetic gives, where 5 percent are 0.05.", "quantifier": "every calculation, of any length and nesting, every number, every name of a fraction or a percentage, every state of the shipped library", "why_tests_cant": "Every calculation and every order of operations: percentages are kept as fractions, multiplied and divided by 100 at each step.", "anchors": ["src/unyts/units/unitless.py:Dimensionless", "src/unyts/units/unitless.py:Percentage", "src/unyts/unit_class.py:Unit.__add__", "src/unyts/unit_class.py:Unit.__mul__", "src/unyts/unit_class.py:Unit.__truediv__", "src/unyts/unit_class.py:Unit.__rtruediv__", "src/unyts/unit_class.py:Unit.__sub__", "src/unyts/unit_class.py:Unit.__rsub__"]}
{"id": "C129", "title": "Looking for a quantity in a list goes by amounts", "statement": "q in l, l.count(q), l.index(q) and l.remove(q) find, in a list of quantities of one class, the entries that hold the same amount as q, whatever the units they are written in; index and remove take the first of them and raise ValueError when there is none.", "quantifier": "every list of quantities of one class, of any length, every quantity of that class, every state of the library", "why_tests_cant": "Every list and every history: each comparison converts, and may change what the library remembers.", "anchors": ["src/unyts/unit_class.py:Unit.__eq__", "src/unyts/unit_class.py:Unit.convert"]}
{"id": "C130", "title": "A fraction or a percentage of a quantity is that part of its amount", "statement": "q * s and s * q, where s is any calculation with fractions and percentages, are the quantity of the class and unit of q that holds that part of its amount, and q / s the one of which q is that part: units(200, 'm') * units(15, '%') are 30 m. Computations that add, subtract, convert and compare such quantities in any nesting go by the amounts.", "quantifier": "every quantity that is no fraction or percentage itself, every calculation with fractions and percentages, every computation of any nesting with quantities of one class, every state of the shipped library", "why_tests_cant": "Every computation and history: percentages are rescaled at every step and conversions change what the library remembers.", "anchors": ["src/unyts/unit_class.py:Unit.__mul__", "src/unyts/unit_class.py:Unit.__truediv__", "src/unyts/units/unitless.py:Percentage", "src/unyts/units/unitless.py:Dimensionless", "src/unyts/unit_class.py:Unit.__add__", "src/unyts/unit_class.py:Unit.convert"]}
{"id": "C131", "title": "A product or quotient with a tuple of quantities is the tuple of the products or quotients", "statement": "p * (a, b, ...) and (a, b, ...) * p are the tuple of the products of p and the entries and p / (a, b, ...) the tuple of the quotients, in order, as many as the entries; the first entry that raises an error gives the error of the whole. A fraction or percentage times a tuple of quantities of any classes gives each its share, in its own class and unit, so a share of a sum of unlike quantities is the sum of their shares. A tuple divided by a quantity raises an error.", "quantifier": "every quantity, every tuple of quantities and numbers of any length, every state; for the shares every calculation with fractions and percentages and every state of the shipped library", "why_tests_cant": "Every length, every entry and every state: each product can convert and change what the library remembers, and the result of a later entry must not depend on how many came before it.", "anchors": ["src/unyts/unit_class.py:Unit.__mul__", "src/unyts/unit_class.py:Unit.__rmul__", "src/unyts/unit_class.py:Unit.__truediv__", "src/unyts/unit_class.py:Unit.__rtruediv__"]}
{"id": "C132", "title": "Quantities are taken apart without loss", "statement": "q // x and q % x with a number are the whole number of times and what is over, in the class and unit of q, and by zero ZeroDivisionError. q % p with another quantity is, in the unit of q, what is over when the amount of q is divided by that of p, and q % a % b % ... what is over after whole numbers of a, of b, ... are taken away (inches into yards and feet): parts and rest make up q, and the rest is less than every part.", "quantifier": "every quantity of every class and every number; every quantity and every list of parts of one class, of any length, every history of conversions and questions", "why_tests_cant": "Every list of parts, unit and history: each remainder converts a part to the unit of the quantity and can change what the library remembers, and the error of one step would be carried to the rest.", "anchors": ["src/unyts/unit_class.py:Unit.__floordiv__", "src/unyts/unit_class.py:Unit.__mod__"]}
{"id": "C133", "title": "The mean of quantities is the mean of their amounts", "statement": "sum(l) / len(l) of a list of quantities of one class is a quantity of that class, in the unit of the first, whose amount is the mean of the amounts; the library's own comparisons put it between every bound below and every bound above the entries.", "quantifier": "every list of any length, every unit, every history of conversions and questions", "why_tests_cant": "Every list and history: each addition converts and can change what the library remembers.", "anchors": ["src/unyts/unit_class.py:Unit.__radd__", "src/unyts/unit_class.py:Unit.__add__", "src/unyts/unit_class.py:Unit.__truediv__", "src/unyts/unit_class.py:Unit.__ge__"]}
{"id": "C134", "title": "As a condition a quantity tells whether it has a unit of the library", "statement": "if q, any(l), all(l) and filtering a list by the truth of its entries go by the class alone: fractions, percentages and quantities of units of the user count as false, all others as true, whatever their amount, a zero amount included.", "quantifier": "every quantity of every class, unit and amount, every list of any length", "why_tests_cant": "Every quantity and list: programs branch on quantities, and no amount may change the branch.", "anchors": ["src/unyts/unit_class.py:Unit.__bool__"]}

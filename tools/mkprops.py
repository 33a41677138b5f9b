import json
P=[]
def p(id,title,statement,quant,why,anchors):
    P.append(dict(id=id,title=title,statement=statement,quantifier=quant,why_tests_cant=why,anchors=anchors))
S="src/unyts/"
p("C01","Every search returns a genuine conversion path","Whenever BFS, lean_BFS, DFS or hybrid_BFS returns a path from start to end, the path begins with start, finishes with end, repeats no node, and every two consecutive nodes are joined by a direct conversion of the network that was searched.","every network, every start and end node, every generations limit, all four algorithms","Networks, including those grown by users with set_unit/set_conversion, are unbounded; tests only search the shipped one.",[S+"searches.py:BFS",S+"searches.py:lean_BFS",S+"searches.py:DFS",S+"searches.py:hybrid_BFS"])
p("C02","BFS terminates and is complete","BFS always terminates; it returns a path if and only if end can be reached from start through direct conversions, and returns None otherwise.","every finite network, every start and end node","Termination and completeness concern all networks (cycles, self-loops, unreachable parts), not samples.",[S+"searches.py:BFS"])
p("C03","BFS returns a shortest path","No chain of direct conversions from start to end is shorter than the path BFS returns.","every network, every start/end, every competing chain of conversions","Minimality quantifies over all alternative paths.",[S+"searches.py:BFS"])
p("C04","The default algorithm (lean_BFS) loses nothing on two-way networks","On a network whose conversions all exist in both directions and whose names are distinct and not compound, lean_BFS finds a path of the same (shortest) length as BFS whenever the distance is at most twice the generations limit plus two; it never finds one when BFS finds none.","every two-way network, every start/end, every generations limit","The pruned sub-network must contain a shortest path for every topology.",[S+"searches.py:lean_BFS",S+"converter.py:_get_descendants"])
p("C05","DFS is complete within its branch depth","If every node reachable from start reaches end within the depth limit whenever it reaches end at all, DFS returns a path exactly when end is reachable from start (start different from end).","every network with distinct simple names, every start/end, every depth","Depth-first search with a global visited set can lose targets on unusual topologies; only an induction over all of them settles it.",[S+"searches.py:DFS",S+"converter.py:_get_descendants"])
p("C06","hybrid_BFS is correct under every schedule","For every interleaving of the two worker threads and the polling caller, if hybrid_BFS returns a path it is one of the two paths the workers compute, if it returns None both workers found nothing, and once both workers have finished normally the caller's next polls terminate.","every interleaving of worker writes and caller polls, every pair of worker results","Thread schedules cannot be enumerated by tests.",[S+"searches.py:hybrid_BFS",S+"searches.py:_bfs",S+"searches.py:_lean_bfs",S+"searches.py:SerialRun"])
p("C07","The chosen algorithm does not change the value","On a network whose conversions are mutually consistent, converting a value along a path found by any of the algorithms gives the same number.","every consistent network (linear or not), every value, every pair of algorithms","Different algorithms return different paths; agreement must hold along all of them.",[S+"searches.py",S+"converter.py:_apply_conversion",S+"parameters.py:set_algorithm"])
p("C08","Redefining an existing unit name is harmless","Calling set_unit or set_conversion with a name that already exists never raises, keeps that name resolving to the node it resolved to before, and leaves every existing direct conversion in place (the first definition of a pair wins).","every sequence of set_unit/set_conversion calls on every network","Histories of definitions are unbounded.",[S+"network.py:UDigraph.add_node",S+"network.py:UDigraph.add_edge",S+"network.py:UDigraph.get_node",S+"units/custom.py:set_conversion"])
p("C09","A new conversion takes effect","After set_conversion(a, b, f), convert(v, a, b) returns f(v).","every state of the library, every a, b, f, v","Whether it takes effect depends on the whole history of searches and caches before the call.",[S+"units/custom.py:set_conversion",S+"network.py:UDigraph.get_edges_str",S+"converter.py:_get_conversion"])
p("C10","The default reverse conversion is an inverse exactly for proportional conversions","When set_conversion is given no reverse, the reverse it installs, x / conversion(1), undoes the conversion for every value if and only if the conversion is multiplication by a non-zero constant.","every conversion function, every value","The claim ranges over all functions and all numbers.",[S+"units/custom.py:set_conversion",S+"network.py:Conversion.get_convert"])
p("C11","Converting a unit to itself changes nothing","convert(v, u, u) returns v.","every value, every unit string (known to the library or not), every reachable state of memory and network","Any string is accepted; the result depends on memory left by earlier calls.",[S+"converter.py:convert",S+"converter.py:_get_conversion"])
p("C12","The returned function and the returned number agree","If convert(None, a, b) returns a function g then convert(v, a, b) returns g(v).","every state, every pair of units, every value, with the cache in use","Two different code paths (path application and composed lambdas) must agree for all values and networks.",[S+"converter.py:_apply_conversion",S+"converter.py:_lambda_conversion",S+"converter.py:_get_conversion",S+"converter.py:_converter"])
p("C13","Round trips","On a consistent network, convert(convert(v, a, b), b, a) equals v for simple units a and b.","every consistent network, memory left by any earlier conversions, every value","Must hold for every network, path and number.",[S+"converter.py:convert",S+"converter.py:_get_conversion"])
p("C14","Transitivity","On a consistent network converting a to b and then b to c gives the same number as converting a to c directly.","every consistent network, memory left by any earlier conversions, every value, every a, b, c","Paths found for the three pairs are unrelated; agreement must hold for all.",[S+"converter.py:convert",S+"converter.py:_get_conversion"])
p("C15","Ratios convert part by part","convert(v, 'a/b', 'c/d') equals v * k1 / k2 where k1 converts one a into c and k2 converts one b into d, when a, b, c, d are simple units and the parts correspond only that way.","every network, every simple a, b, c, d, every value","Combinations of parts are unbounded.",[S+"converter.py:_converter",S+"helpers/unit_string_tools.py:split_unit"])
p("C16","Conversions obtained by splitting are proportional","Whenever a compound conversion is obtained by converting its parts there is one factor k such that every value v converts to v * k; zero converts to zero and scaling v scales the result.","every state, compound pair and value","All values and all networks.",[S+"converter.py:_converter"])
p("C17","Repeating a successful conversion gives the same answer","With the cache on, if convert(v, a, b) returned a number, calling it again at once returns the same number; and it keeps returning it after any number of further conversions between simple units.","every state, every pair, every value, every history of conversions between simple units","Histories are unbounded; each call mutates memory.",[S+"converter.py:convert",S+"network.py:UDigraph.memory"])
p("C18","convertible is a stable question","Calling convertible(a, b) twice in a row gives the same answer.","every state and every pair of units","The function mutates shared search state.",[S+"converter.py:convertible",S+"network.py:UDigraph.previous"])
p("C19","convertible means convert works","If convertible(a, b) returns True then an immediately following convert(v, a, b) with clean unit strings does not raise NoConversionFoundError.","every state with cache on, every pair, every value","Depends on all reachable memory states.",[S+"converter.py:convertible",S+"converter.py:convert"])
p("C20","Blanks and outer decoration of unit names are ignored","convert gives the same result when blanks, quotes or an outer opening/closing parenthesis are added around the unit names.","every unit string, every amount of decoration","All strings.",[S+"converter.py:_clean_input"])
p("C21","Volume to mass conversion uses the density","Converting a volume to a weight multiplies by the density expressed in the target units, and converting a weight to a volume divides by it.","every density, value and pair of volume and weight units","All values, densities and unit pairs.",[S+"converter.py:_density_conversion",S+"parameters.py:set_density"])
p("C22","Changing the formation volume factor takes effect","After set_fvf(b), conversions between reservoir and standard volumes use b, also when the same conversion has already been made with another factor.","every history of set_fvf and convert, every positive factor","Histories and caches.",[S+"network.py:UDigraph.set_fvf",S+"network.py:UDigraph.get_fvf",S+"database.py"])
p("C23","Temperature gradients use slopes, not offsets","Converting a temperature gradient multiplies by the ratio of the degree sizes and divides by the conversion of the denominator: offsets never enter.","every pair of temperature scales, every denominator pair, every value","All values and denominators.",[S+"converter.py:_get_conversion",S+"dictionaries.py:temperatureRatioConversions"])
p("C24","Inverted ratios invert the value","convert(v, 'a/b', 'b/a') equals 1/v.","every pair of distinct names, every non-zero value","All strings and values.",[S+"converter.py:_get_conversion"])
p("C25","Conversion always terminates within the recursion limit","Every call of convert or convertible terminates, and nests no more than max_recursion + 1 levels of conversion, whatever the network and memory contain.","every network, memory, unit strings and recursion limit","Cyclic networks and compound units could recurse for ever.",[S+"converter.py:_get_recursion_limit",S+"converter.py:_converter"])
p("C26","Percentages and fractions","Converting a fraction to a percentage multiplies by 100, the reverse divides by 100, and the two are mutually inverse.","every value, every spelling of the names in any letter case","All values and spellings.",[S+"converter.py:_get_conversion"])
p("C27","Dimensionless numbers can be given any simple unit","Converting from a dimensionless unit to any unit without a ratio returns the value unchanged.","every value and every unit string without '/'","All strings.",[S+"converter.py:_get_conversion"])
p("C28","Splitting a unit string loses nothing","Joining the list produced by multi_split with no removals gives back the original string.","every string, every non-empty set of non-empty separators","All strings and separators.",[S+"helpers/multi_split.py:multi_split"])
p("C29","Splitting does not depend on the order of separators","multi_split gives the same list for every ordering and repetition of the same separators.","every string, every permutation of separators","Python set ordering of strings is randomised per process.",[S+"helpers/multi_split.py:multi_split"])
p("C30","Split parts are atomic","Every element multi_split returns is either a separator or a non-empty string containing no separator.","every string, every set of separators","All strings.",[S+"helpers/multi_split.py:multi_split"])
p("C31","reduce_units preserves the dimension","reduce_units returns a string that denotes the same product of powers of base units as its argument.","every unit string made of names, '*' and '/'","All strings.",[S+"helpers/unit_string_tools.py:reduce_units"])
p("C32","reduce_units removes what can be cancelled","In the string reduce_units returns no unit appears both as numerator and as denominator (unless everything cancelled), so reducing again changes nothing.","every unit string made of names, '*' and '/'","All strings.",[S+"helpers/unit_string_tools.py:reduce_units"])
p("C33","reduce_parentheses preserves the meaning","reduce_parentheses returns a string without parentheses that denotes the same product of powers as its argument, and raises ValueError when the numbers of opening and closing parentheses differ.","every unit string made of names, '*', '/' and balanced parentheses","All nestings.",[S+"helpers/unit_string_tools.py:reduce_parentheses"])
p("C34","Unit powers","For a name u without digits, signs or operators and any integers n and m other than 0 and 1, unit_base_power(u + str(n)) is (u, n), and unit_power(unit_power(u, n), m) equals unit_power(u, n*m).","every name, all integers","All integers and names.",[S+"operations.py:unit_base_power",S+"operations.py:unit_power"])
p("C35","Inverting a unit twice gives the unit back","unit_inverse(unit_inverse(u)) = u for u a simple name, a name with a power, or a ratio of two simple names.","every such name","All names and powers.",[S+"operations.py:unit_inverse"])
p("C36","Dimensionless is neutral in products and quotients","unit_product(u, d), unit_product(d, u) and unit_division(u, d) are u for every dimensionless spelling d and every unit u that is not itself trivial.","every unit string and dimensionless spelling","All strings.",[S+"operations.py:unit_product",S+"operations.py:unit_division"])
p("C37","Product and quotient of unit names have the right dimension","For simple unconvertible names a, b, unit_product(a, b) denotes a*b and unit_division(a, b) denotes a/b; for a convertible pair the result is the square of the first, respectively dimensionless.","every pair of simple names, every network","All names and networks.",[S+"operations.py:unit_product",S+"operations.py:unit_division"])
p("C38","Adding quantities","Adding two quantities of the same kind yields the first one's unit and the sum of the values after converting the second; on a consistent network a+b and b+a denote the same quantity.","every pair of quantities of a kind, every consistent network","All values and units.",[S+"unit_class.py:Unit.__add__"])
p("C39","Comparisons are coherent","For two quantities of the same kind, exactly one of <, ==, > holds, <= is the disjunction of < and ==, and != is the negation of ==; on a consistent network with increasing conversions a < b iff b > a.","every pair of quantities of a kind","All values and units.",[S+"unit_class.py:Unit.__lt__",S+"unit_class.py:Unit.__le__",S+"unit_class.py:Unit.__eq__",S+"unit_class.py:Unit.__gt__"])
p("C40","Percentage arithmetic","The sum of p percent and q percent is p+q percent, p percent times a number k is p*k percent, and rounding keeps the magnitude.","every p, q, k","All values.",[S+"unit_class.py:Unit.__add__",S+"unit_class.py:Unit.__round__",S+"units/unitless.py:Percentage"])
p("C41","Negation and absolute value","-(-x) equals x and abs(-x) equals abs(x) with the unit kept, for every quantity including percentages.","every quantity","All values and kinds.",[S+"unit_class.py:Unit.__neg__",S+"units/unitless.py:Percentage.__neg__"])
p("C42","units() always keeps the number and the unit","units(v, u) returns an object whose unit is u without outer blanks and whose displayed value is v, or a user unit when u is unknown, whenever it returns at all.","every value and unit string","All strings.",[S+"units/define.py:units",S+"units/custom.py:UserUnits"])
p("C43","x.to(u).to(x.unit) is x","On a consistent network converting a quantity to another unit of its kind and back gives an equal quantity of the same kind.","every quantity and convertible unit","All values and networks.",[S+"unit_class.py:Unit.convert"])
p("C44","Settings persist","After any setting is changed through an API call that saves, a new process that starts normally sees every setting with its saved value.","every sequence of setting calls, every set of values","Histories of settings.",[S+"parameters.py:UnytsParameters.save_params",S+"parameters.py:UnytsParameters.load_params"])
p("C45","A crash while saving does not prevent the next start","If the process dies at any point while saving its settings, the next import still succeeds and sees either the old or the new settings.","every crash point of the save, every pair of old and new settings","Crash points.",[S+"parameters.py:UnytsParameters.save_params",S+"parameters.py:UnytsParameters.load_params"])
p("C46","A missing cache file never prevents the start","Whatever subset of the cache files is missing, importing the library succeeds and builds the same network as a clean start.","every subset of missing cache files, every settings file","All combinations of files on disk.",[S+"database.py",S+"dictionaries.py"])
p("C47","Switches toggle","Calling a switch with no argument flips it, calling it twice restores it, and calling it with any string sets it on except for the off spellings in any letter case and with outer blanks.","every state and every string","All strings.",[S+"parameters.py:UnytsParameters.print_path",S+"parameters.py:UnytsParameters.cache",S+"parameters.py:UnytsParameters.raise_error",S+"parameters.py:UnytsParameters.verbose"])
p("C48","set_user_folder points at the folder given","After set_user_folder(p) for an existing folder p, the cache files are placed inside p.","every path string of an existing folder","All strings.",[S+"parameters.py:UnytsParameters.set_user_folder"])
p("C49","to_number inverts str on integers","to_number(str(n)) = n for every integer n.","all integers","Unbounded.",[S+"helpers/caster.py:to_number"])
p("C50","Thousands separators are ignored","Writing an integer with one of the accepted thousands separators between groups of three digits gives the same number.","all integers, all accepted separators","Unbounded.",[S+"helpers/caster.py:to_number"])
p("C51","Parentheses mean negative","to_number('(' + str(n) + ')') = -n for every natural number n.","all natural numbers","Unbounded.",[S+"helpers/caster.py:to_number"])
p("C52","Every built-in conversion can be undone","In the network the loader builds every direct conversion from a to b is accompanied by a direct conversion from b to a.","every dictionary of units the loader may be given","The loader's loops run over dictionaries of any size; the shipped one is one instance.",[S+"database.py:_load_network"])
p("C53","Prefixes scale correctly","A metric prefix applied to a unit of order n converts to that unit by the prefix factor raised to n.","every prefix, every prefixed unit of the dictionary","All units and values.",[S+"database.py:_load_network",S+"dictionaries.py:SI"])
p("C54","Temperature scales are consistent","The built-in conversions between Celsius, Fahrenheit, Kelvin and Rankine are mutually consistent: converting along any cycle of them returns the original number.","every value, every cycle of direct temperature conversions","All values and cycles.",[S+"database.py:_load_network"])
p("C55","Built-in pressure conversions are consistent","Converting a pressure along any two different chains of built-in conversions gives the same number.","every value, every pair of chains","All values and chains.",[S+"database.py:_load_network"])
p("C56","is_unit accepts compounds of known units","is_unit accepts every known name, and every product or quotient of known names; it accepts nothing else.","every string, every dictionary","All strings.",[S+"helpers/is_unit.py:is_unit"])
p("C57","A crash during the start does not prevent later starts","If the process dies at any point of an import, or any of the cache files is damaged, a later import succeeds and gives the same network.","every crash point of the import, every combination of missing, damaged and correct cache files, every settings","Crash points and combinations of files.",[S+"database.py:_rebuild_units",S+"dictionaries.py:_load_dictionary",S+"parameters.py:UnytsParameters.save_params"])
p("C58","Saved searches come back","What save() stored is in the search memory after the next start and after load(), and load(path) brings back what save(path) stored.","every search memory, every state of the files","All histories of saves and starts.",[S+"network.py:UDigraph.save_memory",S+"network.py:UDigraph.load_memory",S+"__init__.py:save",S+"__init__.py:load"])
p("C59","A built-in conversion and the one back undo each other","Whenever the shipped network converts directly from a to b and directly from b to a, converting a number there and back gives the number.","every pair of units of the shipped network, every number, every formation volume factor but 0","Thousands of pairs, all numbers.",[S+"database.py:_load_network",S+"network.py:Conversion"])
p("C60","The shipped data load","Loading the shipped dictionary raises nothing and gives a network with one node per name whose conversions all lead to nodes of the network; so does any dictionary with the documented shape.","every dictionary of the documented shape","The loader's loops run over dictionaries of any size.",[S+"database.py:_load_network",S+"database.py:_clean_network",S+"dictionaries.py:_load_dictionary"])
p("C61","Built-in conversions do not depend on the path","Converting along any two chains of built-in conversions between the same two units gives the same number, and a chain there followed by a chain back gives the number one started with.","every pair of chains of any length, every number","Unboundedly many chains.",[S+"database.py:_load_network"])
p("C62","What can be converted can be converted back","If the shipped network converts from a to b through some chain, it converts from b to a through some chain.","every pair of units of the shipped network","All pairs and chains.",[S+"database.py:_load_network"])
p("C63","Different quantities are never converted into each other","No chain of built-in conversions leads from a unit of one quantity to a unit of another.","every pair of units of kinds of different quantities, every chain","All pairs and chains.",[S+"database.py:_load_network",S+"dictionaries.py:_load_dictionary"])
p("C65","Products have the right amount","The product of two quantities of simple units denotes the product of the amounts: expressed in the square of the first unit when the units convert into each other, in the product of the two units otherwise.","every pair of quantities of simple units, every state of the library","All values, units and networks.",[S+"unit_class.py:Unit.__mul__",S+"operations.py:unit_product"])
p("C66","Floor division and remainder belong together","For d = p // q and m = p % q of quantities of one kind, d is a whole number, d times q plus m is p, and m has the sign of q and is smaller; units that do not convert are refused.","every pair of quantities","All values, signs and units.",[S+"unit_class.py:Unit.__floordiv__",S+"unit_class.py:Unit.__mod__"])
p("C67","Dividing a quantity by a number keeps its class and unit","q / x is a quantity of the class and unit of q with the number divided.","every quantity and number, every dictionary","All units of all dictionaries.",[S+"unit_class.py:Unit.__truediv__",S+"units/define.py:units"])
p("C69","convert_for_SimPandas converts or gives the value back","convert_for_SimPandas(v, a, b) is what convert(v, a, b) gives when the units are convertible and v otherwise.","every state, pair of units and value","Depends on the history of searches.",[S+"converter.py:convert_for_SimPandas"])
p("C70","raise_error only decides between None and the exception","With raise_error on convert never returns None; where it returns None with raise_error off it raises NoConversionFoundError with it on, and all other results are the same.","every state, units and value","All states and units.",[S+"converter.py:convert",S+"parameters.py:UnytsParameters.raise_error"])
p("C73","What has been converted is convertible","When convert(1, a, b) returned a number, convertible(a, b) called next says True.","every state with the cache in use, every pair of units","Depends on the state the conversion leaves.",[S+"converter.py:convert",S+"converter.py:convertible"])
p("C75","Arithmetic leaves the library as it is","No operation on quantities, successful or not, changes the network, the settings or the units of any class, except that new names of the user's units are remembered.","every operation, operand and state","All operations on all states.",[S+"unit_class.py",S+"units/define.py:units",S+"units/custom.py:UserUnits"])
p("C68","Results are quantities their class accepts","Whatever arithmetic operation on quantities or numbers returns a quantity, the unit of that quantity is one that its class accepts, so that it can be rebuilt from its value and unit.","every quantity, number, operation and state of the library","All operations on all states.",[S+"unit_class.py",S+"units/define.py:units",S+"units/unitless.py",S+"units/custom.py:UserUnits"])
p("C72","Subtracting quantities","Subtracting two quantities of the same kind yields the amount of the first minus the amount of the second.","every pair of quantities of a kind, every network of proportional units","All values and units.",[S+"unit_class.py:Unit.__sub__"])
p("C74","The ratio of like quantities is a plain number","The ratio of two quantities whose units convert into each other is the ratio of their amounts, and it is a number without unit.","every pair of quantities of convertible units","All values and units.",[S+"unit_class.py:Unit.__truediv__",S+"operations.py:unit_division"])
p("C64","Built-in units convert consistently through convert","With the shipped units, convert there and back returns the number one started with, converting through an intermediate unit gives what converting directly gives, and the answer does not depend on the algorithm, the cache or the calls made before.","every pair or triple of built-in units, every value, every history of calls, every algorithm","All histories over a network of 2600 names.",[S+"converter.py:convert",S+"database.py:_load_network"])
p("C76","Built-in units have their standard size","Between built-in units whose sizes are defined by a standard, convert answers the number times the ratio of the sizes, whatever was converted before.","every pair of listed units of one quantity, every value, every history of calls, every algorithm","The path the search takes depends on the history, the algorithm and the whole network.",[S+"converter.py:convert",S+"database.py:_load_network",S+"dictionaries.py:_load_dictionary"])
p("C71","Ratios and products of units convert by their sizes","Whenever convert answers a number for two units of the same dimension (single names, ratios or products), the number is the value times the ratio of the sizes of the units, after any history of calls.","every pair of units of one dimension, every value, every history of calls, every algorithm and cache setting, every network whose own conversions respect the sizes","All unit expressions and histories; the answer may come from a path of names, from matching parts, from a pair child or from common descendants, whichever is found first.",[S+"converter.py:convert",S+"converter.py:_converter",S+"converter.py:_get_conversion",S+"converter.py:_get_pair_child",S+"converter.py:_get_descendants"])
p("C77","Decimals and exponents are read exactly","to_number of an optional sign, digits, a decimal mark, digits and an exponent is the rational number it denotes.","every number of digits, every exponent","Unbounded strings.",[S+"helpers/caster.py:to_number"])
p("C78","is_unit knows the built-in units","Right after the import is_unit accepts every built-in unit, every ratio and product of built-in units that forms a quantity, and every product and quotient of built-in names; of strings without signs it accepts nothing else.","every string; the built-in names (thousands, most of them generated) and all their compounds","The names are generated by the loader and their compounds are unbounded.",[S+"helpers/is_unit.py:is_unit",S+"database.py:_load_network",S+"dictionaries.py:dictionary"])
p("C79","The dictionary lists the units of every quantity and nothing else","After the import, dictionary[k] lists exactly the built-in units of the quantity k, the ratios and products of built-in units that form that quantity (volume per time, pressure per length, ...), and those products in the other order. The same relation holds for any dictionary of basic units.","every quantity, every string, every dictionary of basic units","Quadratic and cubic numbers of generated names; all dictionaries.",[S+"database.py:_load_network",S+"database.py:_complete_products",S+"database.py:_create_Rates",S+"database.py:_create_Density"])
p("C80","A unit belongs to one quantity","No built-in name is a unit of two quantities, and a ratio of two built-in names is listed under one quantity only.","every built-in name and every ratio of two","Thousands of generated names and all their pairs.",[S+"dictionaries.py:dictionary",S+"database.py:_load_network"])
p("C81","units gives the quantity its class","units(v, u) of a built-in unit of the quantity q, or of a ratio a/b of built-in units whose quotient is the quantity q, is an instance of the class of q with value v and unit u, and making it changes nothing in the library.","every built-in name, every ratio of two, every number","Thousands of generated names and all their pairs.",[S+"units/define.py:units",S+"units/geometry.py:Length",S+"dictionaries.py:dictionary"])
p("C82","Powers and inverses","q ** n raises the number of q to n and its unit to the power n; the square is q * q; x / q divides the number and inverts the unit; q ** 0 is a plain number; zero to a negative power is an error.","every quantity, unit, exponent and state of the library","All numbers, exponents and units.",[S+"unit_class.py:Unit.__pow__",S+"unit_class.py:Unit.__rtruediv__",S+"operations.py:unit_base_power"])
p("C83","p @ q divides without converting","p @ q divides the numbers as they are and has the reduced unit of p over q, whose dimension is that of p divided by that of q; q @ x with a number keeps class and unit; dividing by zero is an error.","every pair of quantities, every number, every state","All units and numbers.",[S+"unit_class.py:Unit.__matmul__",S+"helpers/unit_string_tools.py:reduce_units"])
p("C84","Rounding","q.round(n) and round(q, n) show the nearest number with n decimals (q.round(-n): with n significant digits), halves to even, in the same unit; rounding again changes nothing.","every quantity, number and precision","All numbers.",[S+"unit_class.py:Unit.round",S+"unit_class.py:Unit.__round__"])
p("C85","equals compares amounts up to rounding","p.equals(q, n) is True exactly if the amounts of p and q in the unit of p agree when rounded to n; equal amounts are always equal, and quantities that are equal to n decimals differ by at most one unit of the last decimal; without n it compares exactly.","every pair of quantities, every precision, every state","All numbers and units.",[S+"unit_class.py:Unit.equals",S+"unit_class.py:Unit.eq"])
p("C86","Laws of energy and electricity","Power times time is an energy, current times resistance a voltage, voltage times current a power, capacitance times voltage a charge, and the quotients accordingly: the result has the class and unit of the law and the amount of the product or quotient, whatever the units of the operands; no other product is affected.","every pair of quantities of these classes, every state","All numbers, units and histories.",[S+"units/energy.py:Power.__mul__",S+"units/energy.py:Energy.__truediv__",S+"units/energy.py:Voltage.__mul__",S+"units/time.py:Time.__mul__"])
p("C87","Units of one quantity convert into each other","Any two built-in units of one quantity are joined by a chain of built-in conversions.","every quantity and every pair of its units","Thousands of generated names; the chains run through the whole network.",[S+"database.py:_load_network",S+"dictionaries.py:_load_dictionary"])
p("C88","convert finds every conversion there is","After the import and any conversions and questions, convert answers a number for two built-in units exactly when a chain of built-in conversions joins them, and convertible says so.","every pair of names, every value, every history of calls, every search algorithm but DFS, every setting of the cache","The screening, the cache and the memory of failed searches all depend on the history.",[S+"converter.py:convert",S+"converter.py:_converter",S+"converter.py:convertible",S+"searches.py:lean_BFS",S+"searches.py:hybrid_BFS",S+"network.py:UDigraph"])
p("C89","convert refuses units of different quantities","convert never answers a number for two built-in units of different quantities, whatever was done before.","every pair of units of different quantities, every value, every history","All pairs and histories.",[S+"converter.py:convert",S+"database.py:_load_network"])
p("C90","Metric prefixes through convert","After the import, whatever was asked before, convert between two metric prefixes of a unit, or between a prefix and none, multiplies by the quotient of the powers of ten, raised to the order of the unit.","every prefix, every prefixed unit, every number, every history of calls","All units, values and histories.",[S+"converter.py:convert",S+"database.py:_load_network",S+"dictionaries.py:SI"])
p("C91","Temperatures are absolute temperatures","After the import, whatever was asked before, convert between any two names of temperature scales answers, and the answer is as far above absolute zero in kelvins as the number given.","every pair of names of Celsius, Kelvin, Fahrenheit and Rankine, every number, every history of calls","The path the search takes depends on the history and the algorithm.",[S+"converter.py:convert",S+"database.py:_load_network"])
p("C92","The path shown is the path taken","When convert answers for two single names, the text it leaves in last_path_str (and logs when print_path is on) lists, joined by arrows, a chain of direct conversions from the first unit to the second without repetitions, and the answer is what those conversions give one after the other; looking at the path does not change the answer.","every state, pair of names and value","The path depends on the algorithm, the network and the history.",[S+"searches.py:print_path",S+"converter.py:convert",S+"parameters.py:UnytsParameters.print_path"])
p("C93","Weights convert by their sizes","Built-in weights convert into each other by their standard sizes (gram, pound, ounce, stone, hundredweight, tons) exactly, and there and back to the same number, although volumes and weights share the ounce and the volumes contradict each other; no formation volume factor is needed.","every pair of weights, every value, every history of conversions","The path between two weights depends on the algorithm and on what was asked before; only a proof that no path leaves the weights rules the volumes out.",[S+"database.py:network_conversions",S+"converter.py:convert",S+"searches.py:lean_BFS"])
p("C94","A direct conversion is never bypassed","When the network holds a direct conversion between two units, `convert` applies that one and no detour through other units, even if the detour would give another number; more generally it goes from unit to unit by as few direct conversions as possible.","every network, every two linked units, every value, every history of conversions and questions, every setting of the cache, every search but DFS","Which chain of conversions is used depends on the order of the edges, the algorithm, the memory and the whole network.",[S+"searches.py:BFS",S+"searches.py:lean_BFS",S+"searches.py:hybrid_BFS",S+"converter.py:convert"])
p("C95","Absolute pressures convert by their sizes","Built-in pressures that are not gauge pressures convert by their sizes (pascal, bar, atmosphere, torr and their multiples exactly, psi to ten digits), there and back to the same number and through a third one to the same number, although gauge pressures share the network with them and 'psi' and 'bar' are linked to both.","every pair or triple of such pressures, every value, every history of conversions","The network contradicts itself: going through a gauge pressure adds an atmosphere. Only a proof that no chain of conversions used passes through them rules it out.",[S+"database.py:network_conversions",S+"converter.py:convert",S+"searches.py:lean_BFS"])
p("C96","Ratios and products of built-in units convert by their sizes","After the import, whatever single units were asked for before (or without the cache, whatever was asked at all), convert from a ratio or product of units to another whose factors measure, one by one, the same quantities, answers the value times the product of the conversions of the factors, inverted for the denominators: for units of length, time, area, energy, data, velocity, force, pressure and weight with a standard size, the exact quotient of the sizes.","every ratio and product of any number of factors, every value, every history of conversions","The number of factors is unbounded, and the parts are converted one after the other in states that depend on everything before.",[S+"converter.py:convert",S+"converter.py:_converter",S+"converter.py:_get_conversion"])
p("C97","Programs with quantities compute amounts","A program that builds quantities of one class with units(), adds and subtracts them, negates, takes absolute values, changes units with to(), and adds, subtracts, multiplies or divides by numbers gives a quantity of that class, in the unit of its first operand, whose amount is the one obtained by hand from the sizes of the units; comparisons of two such results compare the amounts; running a program never disturbs the programs that follow.","every program of any length, every choice of units of the class, every number, every history of conversions and questions before","Programs are unbounded and every operation asks the converter, whose memory and notes of failed searches change at every step.",[S+"unit_class.py:Unit.__add__",S+"unit_class.py:Unit.__sub__",S+"unit_class.py:Unit.convert",S+"unit_class.py:Unit.__lt__",S+"units/define.py:units",S+"converter.py:convertible",S+"converter.py:convert"])
p("C98","A quantity can stand for its number and unit in convert","convert(q, u) of a quantity q is the number of q.to(u), by the sizes of the two units; wherever a unit is asked for (convert, convertible, q.to) another quantity can be given, which counts as its unit whatever its number; a number with only one unit, or a quantity with none, is a TypeError and changes nothing.","every quantity, every pair of units of its class, given as text or as quantities, every history of conversions and questions before","The arguments are rearranged by type before the conversion, which asks a converter with memory; a test fixes types, units and history.",[S+"converter.py:_clean_input",S+"converter.py:convert",S+"converter.py:convertible",S+"unit_class.py:Unit.convert",S+"unit_class.py:Unit.get_value"])
p("C99","units() and the constructors respect a quantity given as a value","units(q) of a quantity q is an equal quantity of the same class and unit; a quantity with a second unit is refused or converted, never relabelled; a number without a unit is a dimensionless quantity; none of this changes the library.","every quantity of every built-in unit, every number, every state of the dictionary","The result depends on the dictionary of all classes and on how each class stores its number.",[S+"units/define.py:units",S+"unit_class.py:Unit.__init__",S+"unit_class.py:Unit.check_value",S+"units/unitless.py:Percentage"])
p("C100","Products and quotients of built-in quantities compute with the amounts","units(x,a) / units(y,b) and units(x,a) * units(y,b) hold the quotient or product of the numbers in the unit a/b or a*b when the two units are not convertible, the quotient has the class that is the ratio of the two classes where there is one, and division by zero is refused; when the units are convertible, the product is the product of the amounts in the square of the first unit and the quotient is the ratio of the amounts.","every pair of built-in units of the shipped library, every pair of numbers, every history of conversions and questions before","Each of the thousands of pairs of names takes its own path through convertible, convert, unit_product and the dictionary, and the answers depend on the caches that earlier calls filled.",[S+"unit_class.py:Unit.__mul__",S+"unit_class.py:Unit.__truediv__",S+"unit_class.py:Unit.__floordiv__",S+"operations.py:unit_product",S+"operations.py:unit_division",S+"units/define.py:units"])
p("C101","Quantities whose unit is a ratio convert by the sizes of the units in it","units(x,'a/b').to('c/d') of a velocity, rate, power, pressure or gradient is x times the ratio of the sizes of a and c divided by the ratio of the sizes of b and d, also for a quotient of two quantities, and convertible says yes about the two units; the answer does not depend on what was asked before.","every pair of ratios of built-in units with a standard size, every number, every history of questions","The ratios are built from all pairs of names, and the converter leaves a trace of every pair it tried, so the answer to one call depends on all calls before.",[S+"unit_class.py:Unit.to",S+"converter.py:_converter",S+"converter.py:convertible",S+"converter.py:convert",S+"units/define.py:units"])
p("C102","Volumes convert by their sizes","Built-in volumes (metric, US, field units with their prefixes, at standard conditions or not) convert into each other by their sizes to one part in a million although the library's factors for the barrel are rounded and the network offers several routes; volumes at reservoir conditions likewise, without a formation volume factor; between the two a volume shrinks or swells by the formation volume factor. convertible says yes.","every pair of the listed names, every number, every history of calls, every search algorithm and cache setting, every formation volume factor","The route depends on the algorithm and on what was converted before; all routes through hundreds of units.",[S+"converter.py:convert",S+"database.py:_load_network",S+"database.py:set_fvf"])
p("C103","Rates and other ratios with volumes convert by the sizes of their factors","Barrels or cubic feet per day, productivity indices and any ratio or product whose factors are volumes, pressures or units with a standard size convert by the sizes of the factors, to one part in a million for each volume or psi in it, and shrink or swell by the formation volume factor between reservoir and stock tank conditions, for numbers, for quantities and for the quotient of two quantities; the answer does not depend on what was asked before.","every ratio and product of any number of factors, every value, every history of questions, every formation volume factor","The factors are converted one after the other by routes that depend on everything asked before, and the rounding errors of the library add up over an unbounded number of factors.",[S+"converter.py:convert",S+"converter.py:_converter",S+"converter.py:convertible",S+"unit_class.py:Unit.to",S+"database.py:_load_network"])
p("C104","Spellings of one unit are interchangeable","The other names of a unit, its capitals, small letters, blanks replaced and plurals are all the same unit: converting between two spellings leaves the number unchanged, convertible says yes, and a computation that mixes spellings gives the same amount as one that does not.","all pairs of spellings of one unit the shipped tables give, directly or through others; all amounts, programs, settings and histories of questions","Hundreds of spellings generated from flags in the table keys; a spelling attached to the wrong unit gives a number, not an error.",[S+"dictionaries.py:SI",S+"database.py:_load_dictionary",S+"converter.py:convert",S+"units/unit_class.py:Unit"])
p("C105","The ready-made constants are one of the unit they name","After `from unyts.unitary import mile` the constant is a quantity of the right class with value one in the right unit, for every constant of the module; importing the module changes nothing else; converted to the unit of its own name its value is one.","every constant of the module, every library with the shipped dictionary, every history of questions before the conversion","The constants are computed by the same look-ups as any quantity; a name that belongs to two quantities would silently change class.",[S+"unitary.py",S+"units/define.py:units"])
p("C106","Names that are products or ratios convert as whole names first","A product or ratio that is itself a name of the library ('kW*h', 'J/s', 'stb/day/psi') is converted as a name whenever the network joins it with the wanted unit, and its parts are not looked at: when the two names convert directly into each other the answer is the direct conversion, with one unit between them a path of at most two conversions, and with BFS or hybrid_BFS any path; so `convert(x, a, b)` is x times the size of a over the size of b for the compound names of power, energy, voltage, current, resistance, charge, frequency, velocity, viscosity, force, rates, productivity indices and compressibilities.","every network, every clean pair of names, products and ratios included, every amount, every history of questions; then every pair of the listed names on the shipped library","the answer depends on which way of conversion is met first in a graph of 2608 names and on the memory of earlier questions",[S+"converter.py:convert",S+"converter.py:_get_conversion",S+"searches.py:lean_BFS",S+"dictionaries.py:_load_dictionary",S+"database.py:_load_network"])
p("C107","A sum of unlike quantities keeps its terms","Adding quantities of different classes gives a tuple with the terms, in order and unchanged; adding one more quantity to the tuple adds it to the entry of its class, or appends it, and keeps every other entry.","every number of quantities of pairwise different classes, every state of the library","The result depends on the classes already in the tuple, for tuples of any length.",[S+"unit_class.py:Unit.__add__",S+"unit_class.py:Unit.__radd__",S+"unit_class.py:Unit.__sub__"])
p("C108","`sum` of quantities is the sum of the amounts","`sum` of a list of quantities of one class is a quantity of that class in the unit of the first, worth the sum of the amounts; in another order it is the same amount.","every list of quantities, every order, every history of the library","Lists are of any length and mix units in any order; each addition converts and may change what the library remembers.",[S+"unit_class.py:Unit.__radd__",S+"unit_class.py:Unit.__add__"])
p("C109","`max`, `min` and `sorted` go by amounts","`max`, `min` and `sorted` on quantities of one class order by amount whatever the units are: `sorted` gives a permutation with growing amounts, `max` and `min` an element of the list that no other exceeds.","every list of quantities, every history of the library","The comparisons convert between units one pair at a time, for lists of any length.",[S+"unit_class.py:Unit.__lt__",S+"unit_class.py:Unit.__gt__"])
p("C110","The window recognises number and unit in either box","In the window a number and a unit typed in the two boxes of a row are recognised whichever box each of them is in, with or without spaces around, and the row is rewritten with the unit first; what is not understood is reported in the row.","every text in the boxes, every way of reading numbers","The boxes take any text.",[S+"gui.py:UnytsApp._get_from",S+"gui.py:UnytsApp._get_to"])
p("C111","The button shows what `convert` answers","Pressing the button never raises; it calls `convert` once at most and does nothing else to the library; with a number and a unit in the first row and a unit in the second it shows the result of `convert` in the second row and keeps the first; with the number in the second row only it converts back; when there is no conversion the old result is removed and the window says so. On the shipped library the number shown is the same amount, and deleting the first number and pressing again brings it back.","every text in the boxes, every state of the library, every history of questions","The texts, the state of the library and the order of presses are unbounded, and the two directions call each other.",[S+"gui.py:UnytsApp._calculate",S+"gui.py:UnytsApp._rcalculate"])
p("C112","The dialogs set the constant the user typed, or nothing","The dialogs for the formation volume factor and the density take a positive number, or a number with a unit that is converted, and store it in the converter and in the settings; they ask again after anything else; cancelling leaves everything as it was.","every sequence of answers, every state of the library","Any number of refused answers may come first, and each may call the converter.",[S+"gui.py:start_gui"])
p("C113","The elapsed time shown is right","The time the window shows for a search is the elapsed time, up to rounding.","every elapsed time","Times are any number.",[S+"gui.py:UnytsApp._calculation_time"])
p("C114","The moving text shows the whole path","A path too long for the line moves to and fro, always 53 neighbouring characters of it, and every character is shown; a short path is shown whole.","every path, every number of steps of the movement","Paths are of any length and the movement never ends.",[S+"gui.py:UnytsApp._partial_msg",S+"gui.py:UnytsApp._display_path"])
p("C115","A date plus a time is the date that much later","Adding a quantity of time to a date gives the date that much later, subtracting it the date that much earlier; adding and taking away again gives the same moment, times may be added in any order; the difference of two dates is the time between them and dates can be compared.","every date, every time unit, every number, every sequence of additions","Dates and times have different units and resolutions, and the results are rebuilt at the finer of the two.",[S+"units/date.py:Date.__add__",S+"units/date.py:Date.__sub__"])
p("C116","Temperatures behave as temperatures","A quantity of temperature changed to another scale (with its offset) is the same temperature, also after any number of changes, and back in its own scale it is the same number; comparisons, max, min and sorted of temperatures in different scales go by the temperatures; the sum of two temperatures does not depend on their order.","every temperature in every scale and spelling, every list of them, every sequence of changes, every history of conversions and questions before","The scales have different zeros, so a conversion that merely scales passes many tests; every operation asks a converter with memory.",[S+"unit_class.py:Unit.convert",S+"unit_class.py:Unit.__lt__",S+"unit_class.py:Unit.__add__",S+"units/temperature.py:Temperature",S+"converter.py:convert"])
p("C117","An array converts element by element","Converting an array from one unit to another gives the array of the numbers that converting each element gives, and leaves the library as converting one element does; it fails when, and only when, converting some element fails; with the cache in use the elements may be converted one after the other.","every array of any length, every pair of units (simple, compound, unknown), every state of the library, every cache setting","The value is handed through a recursive search, products and ratios, densities and the cache; each has its own branch for a value and for None.",[S+"converter.py:convert",S+"converter.py:_converter",S+"converter.py:_apply_conversion",S+"converter.py:_density_conversion"])
p("C118","Quantities with arrays compute element by element","A computation with quantities that hold arrays (sums, differences, changes of unit, signs, operations with numbers, comparisons) gives the quantity whose elements are what the same computation gives on the elements; q[i] is the quantity of the element, also counted from the end; arrays of different lengths are refused unless one has a single element; on the shipped library the elements have the exact amounts.","every computation of any depth, every array of any length, every unit and state of the library; for the amounts every history of conversions and questions before","Each operator converts the second operand, builds the result through a constructor with its own treatment of percentages, and may build it in either unit.",[S+"unit_class.py:Unit.__getitem__",S+"unit_class.py:Unit.__add__",S+"unit_class.py:Unit.convert",S+"unit_class.py:Unit.__len__",S+"unit_class.py:Unit.__iter__",S+"units/define.py:units"])
p("C119","The density set is the density used","set_density stores the number it is given in g/cm3, converting a number in another unit or a Density quantity; it raises and keeps the density when the argument is no number or no density, or there is no conversion, and changes nothing else. get_density gives the number back, and can be fed back to set_density. From then on a volume converts to the weight that density gives it, until another density is set.","every argument, every unit, every state of the library; for the amounts every pair of a volume and a weight and every history of questions after the setting","Setting converts with the same converter whose results depend on the density; whether the number stored and the number used agree depends on the path the library finds for each pair of units.",[S+"parameters.py:set_density",S+"parameters.py:get_density",S+"converter.py:_converter"])
p("C120","The formation volume factor set is the one used","set_fvf(b), with a number or a text that is one, makes reservoir volumes convert to stock tank volumes by b and back, whatever was converted before, and changes nothing else; get_fvf gives it back to four decimals; what is no number is refused.","every argument, every state of the library, every pair of a reservoir and a stock tank unit, every history of questions","Remembered conversions hold the function that was composed when the factor was another; that every one of them reads the new factor is a statement about all histories.",[S+"database.py:set_fvf",S+"database.py:get_fvf",S+"network.py:UDigraph.set_fvf",S+"network.py:UDigraph.get_fvf"])
p("C121","The menus of the window show the settings in use","start_gui() opens whatever was set before; then, after any clicks, exactly the algorithm in use is ticked, 'Use cache', 'Verbose', 'Show conversion path', 'Rebuild on next start' and the parallel entries are ticked when they are on, a click on an algorithm puts it in use, here and in the next process, and changing the algorithm ticks 'repeat search' until a conversion is answered or the user unticks it.","every settings file, every session of setting calls before the window is opened, every sequence of clicks","Histories of calls and clicks: the ticks are separate variables kept in step with the settings by each command, so a drift shows only after some sequences.",[S+"gui.py:start_gui",S+"parameters.py:UnytsParameters.set_algorithm",S+"parameters.py:UnytsParameters.set_parallel",S+"parameters.py:UnytsParameters.cache"])
p("C122","The text of a quantity tells its number and its unit","str(units(v, u)) is the number v, an underscore and the unit, percentages included; two quantities with the same text have the same number and unit; units() of the two parts of the text makes the same quantity again.","every number, every unit name, listed or not, without backslash, line end or both kinds of quotes, every state of the library","All names and states; the second use of a user unit takes another path of units() than the first.",[S+"unit_class.py:Unit.__str__",S+"unit_class.py:Unit.__repr__",S+"units/unitless.py:Percentage.__str__",S+"units/define.py:units"])
p("C123","Assigning to a field keeps the quantity well formed","After q.values = x the quantity shows x in the same unit, after q.units = u it shows the same number in the unit u, and its class accepts its unit.","every quantity, number and name","All names and classes.",[S+"unit_class.py:Unit.units",S+"unit_class.py:Unit.values"])
p("C124","Numbers with separators and decimals are read exactly","to_number of an integer with a separator of thousands, a decimal mark and decimals, with the two signs given or found by to_number, with or without a minus or parentheses, is the number it denotes; a group that is not of three digits is refused.","every natural number, every string of decimals, every pair of signs, every way of giving them","All numbers and all pairs of signs.",[S+"helpers/caster.py:to_number",S+"helpers/caster.py:caster"])
p("C125","The arguments of set_conversion","set_conversion refuses with a TypeError, changing nothing, exactly a unit that is neither text nor a quantity and a conversion or reverse that can be subscripted and not called; a quantity stands for its unit; what it accepts adds the two directions where there was no direct conversion and changes nothing else; a number given as the conversion is accepted and makes every later conversion between the two units a TypeError.","every state of the library, every argument, every number converted afterwards","Every state and every conversion function; the late refusal shows only in calls after the one that was wrong.",[S+"units/custom.py:set_conversion",S+"network.py:UDigraph.add_edge",S+"network.py:Conversion.get_convert",S+"converter.py:convert"])
p("C126","The searches made in the window are there when it is opened again","When the window is closed with the cache on and opened again after any starts of the library, ended or killed at any point, and any change of settings, it knows every search it knew, unless a reload was asked for; after a start that ended the next one has the memory on; a memory exported by one process and imported by another is known there.","every content of the memory, every state of the files, every sequence of starts, crash points and settings between closing and opening","Crashes between any two writes and any combination of files and settings.",[S+"gui.py:start_gui",S+"gui.py:close_gui",S+"gui.py:export_memory",S+"gui.py:load_memory_file",S+"database.py:delete_cache",S+"network.py:UDigraph.save_memory",S+"network.py:UDigraph.load_memory",S+"parameters.py:UnytsParameters"])
p("C127","A unit that is only named converts to nothing","A name for which no conversion was ever defined, new or declared with set_unit, converts to no other unit and no other unit converts to it: convertible says False and convert raises NoConversionFound, or returns None with raise_error off, after any calls that define no conversion for it.","every state a session leaves, every name, every other unit, every number, every further history of calls that define no conversion for the name","Every history of conversions, questions, new units and conversions between other units, and every network.",[S+"units/custom.py:set_unit",S+"units/custom.py:set_conversion",S+"converter.py:convert",S+"converter.py:convertible",S+"searches.py:BFS",S+"searches.py:lean_BFS",S+"searches.py:hybrid_BFS"])
p("C128","Calculations with fractions and percentages give the right number","Any calculation with fractions and percentages (units(x, '%'), changes between the names of fractions and percentages with to, negation, abs, sums, differences, products and quotients with numbers on either side and with each other) gives a quantity in the unit of its first operand that shows the number the arithmetic gives, where 5 percent are 0.05.","every calculation, of any length and nesting, every number, every name of a fraction or a percentage, every state of the shipped library","Every calculation and every order of operations: percentages are kept as fractions, multiplied and divided by 100 at each step.",[S+"units/unitless.py:Dimensionless",S+"units/unitless.py:Percentage",S+"unit_class.py:Unit.__add__",S+"unit_class.py:Unit.__mul__",S+"unit_class.py:Unit.__truediv__",S+"unit_class.py:Unit.__rtruediv__",S+"unit_class.py:Unit.__sub__",S+"unit_class.py:Unit.__rsub__"])
p("C129","Looking for a quantity in a list goes by amounts","q in l, l.count(q), l.index(q) and l.remove(q) find, in a list of quantities of one class, the entries that hold the same amount as q, whatever the units they are written in; index and remove take the first of them and raise ValueError when there is none.","every list of quantities of one class, of any length, every quantity of that class, every state of the library","Every list and every history: each comparison converts, and may change what the library remembers.",[S+"unit_class.py:Unit.__eq__",S+"unit_class.py:Unit.convert"])
p("C130","A fraction or a percentage of a quantity is that part of its amount","q * s and s * q, where s is any calculation with fractions and percentages, are the quantity of the class and unit of q that holds that part of its amount, and q / s the one of which q is that part: units(200, 'm') * units(15, '%') are 30 m. Computations that add, subtract, convert and compare such quantities in any nesting go by the amounts.","every quantity that is no fraction or percentage itself, every calculation with fractions and percentages, every computation of any nesting with quantities of one class, every state of the shipped library","Every computation and history: percentages are rescaled at every step and conversions change what the library remembers.",[S+"unit_class.py:Unit.__mul__",S+"unit_class.py:Unit.__truediv__",S+"units/unitless.py:Percentage",S+"units/unitless.py:Dimensionless",S+"unit_class.py:Unit.__add__",S+"unit_class.py:Unit.convert"])
p("C131","A product or quotient with a tuple of quantities is the tuple of the products or quotients","p * (a, b, ...) and (a, b, ...) * p are the tuple of the products of p and the entries and p / (a, b, ...) the tuple of the quotients, in order, as many as the entries; the first entry that raises an error gives the error of the whole. A fraction or percentage times a tuple of quantities of any classes gives each its share, in its own class and unit, so a share of a sum of unlike quantities is the sum of their shares. A tuple divided by a quantity raises an error.","every quantity, every tuple of quantities and numbers of any length, every state; for the shares every calculation with fractions and percentages and every state of the shipped library","Every length, every entry and every state: each product can convert and change what the library remembers, and the result of a later entry must not depend on how many came before it.",[S+"unit_class.py:Unit.__mul__",S+"unit_class.py:Unit.__rmul__",S+"unit_class.py:Unit.__truediv__",S+"unit_class.py:Unit.__rtruediv__"])
p("C132","Quantities are taken apart without loss","q // x and q % x with a number are the whole number of times and what is over, in the class and unit of q, and by zero ZeroDivisionError. q % p with another quantity is, in the unit of q, what is over when the amount of q is divided by that of p, and q % a % b % ... what is over after whole numbers of a, of b, ... are taken away (inches into yards and feet): parts and rest make up q, and the rest is less than every part.","every quantity of every class and every number; every quantity and every list of parts of one class, of any length, every history of conversions and questions","Every list of parts, unit and history: each remainder converts a part to the unit of the quantity and can change what the library remembers, and the error of one step would be carried to the rest.",[S+"unit_class.py:Unit.__floordiv__",S+"unit_class.py:Unit.__mod__"])
p("C133","The mean of quantities is the mean of their amounts","sum(l) / len(l) of a list of quantities of one class is a quantity of that class, in the unit of the first, whose amount is the mean of the amounts; the library's own comparisons put it between every bound below and every bound above the entries.","every list of any length, every unit, every history of conversions and questions","Every list and history: each addition converts and can change what the library remembers.",[S+"unit_class.py:Unit.__radd__",S+"unit_class.py:Unit.__add__",S+"unit_class.py:Unit.__truediv__",S+"unit_class.py:Unit.__ge__"])
p("C134","As a condition a quantity tells whether it has a unit of the library","if q, any(l), all(l) and filtering a list by the truth of its entries go by the class alone: fractions, percentages and quantities of units of the user count as false, all others as true, whatever their amount, a zero amount included.","every quantity of every class, unit and amount, every list of any length","Every quantity and list: programs branch on quantities, and no amount may change the branch.",[S+"unit_class.py:Unit.__bool__"])
P.sort(key=lambda x:int(x['id'][1:]))
with open('/verif/properties.jsonl','w') as f:
    for x in P: f.write(json.dumps(x,ensure_ascii=False)+'\n')
print(len(P))

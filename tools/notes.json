{
 "C01": {
  "note": "BFS, lean_BFS, DFS; hybrid_BFS returns one of the two (C06)."
 },
 "C02": {
  "note": ""
 },
 "C03": {
  "note": ""
 },
 "C04": {
  "note": "Hypotheses on names and snapshot are needed: counterexamples proved beside."
 },
 "C05": {
  "note": ""
 },
 "C06": {
  "note": "Also proved: the caller never returns if one search raises and the other finds nothing."
 },
 "C08": {
  "note": ""
 },
 "C28": {
  "note": "Also: removals drop whole parts only; '' as separator never terminates (proved)."
 },
 "C29": {
  "note": ""
 },
 "C30": {
  "note": ""
 },
 "C31": {
  "status": "partial",
  "note": "Proved when no factor is repeated; false otherwise (a*a/a*b -> b, m/s/s*s -> m, both proved): the code reuses an already cancelled index."
 },
 "C32": {
  "note": ""
 },
 "C33": {
  "status": "partial",
  "note": "ValueError and absence of parentheses for every string; the meaning is preserved when nothing, or one flat final parenthesis, divides; false for nested divisors and for a parenthesis after a divisor (proved)."
 },
 "C49": {
  "note": "Also proved: '1e-5' and '5j' are rejected by the code."
 },
 "C50": {
  "note": "Automatic separators and any given separator except the period (rejected by the code, proved)."
 },
 "C51": {
  "note": "Does not extend to grouped digits (proved)."
 },
 "C34": {
  "note": "For every exponent n other than 0 and every m. Superscripts and 'J/kg' raise ValueError (proved)."
 },
 "C35": {
  "note": "Three shapes of the property; mixed powers and four-part ratios are wrong in the code (proved)."
 },
 "C36": {
  "note": "Also for None, blank and x/x spellings."
 },
 "C37": {
  "note": "convertible is a parameter: any behaviour of the converter state. Also powers of convertible names. Division by powers, and cancelling a factor of a product; a factor that occurs twice is removed twice (C37_repeated_factor_fails)."
 },
 "C07": {
  "note": "Every search algorithm, any memory left by a session; single names."
 },
 "C13": {
  "note": "Round trip whenever the library answers; it is proved to answer with BFS and with lean_BFS within its range. Single names, consistent network."
 },
 "C14": {
  "note": "Consistency is needed (proved)."
 },
 "C09": {
  "status": "partial",
  "note": "Proved with BFS from any state without a remembered answer, and with lean_BFS for new names; false after a remembered failure, for existing names under lean_BFS, and after any search under lean_BFS (three proved witnesses)."
 },
 "C10": {
  "note": "Both as a statement on the installed function and through set_conversion + convert."
 },
 "C11": {
  "note": "Every state a session can leave with recursion limit >= 1, for every unit holding a name; proved false after recursion_limit(0). C11_convertible: in every such state convertible says a single name converts to itself."
 },
 "C12": {
  "note": "C12_here holds without conditions, from one and the same state. The other theorems (with the cache in use) compare calls one after the other. Numbers and raised exceptions both agree."
 },
 "C17": {
  "note": "At once: every pair. Later: any history of conversions between names; proved false after ratio conversions when the recursion limit poisons the memory."
 },
 "C18": {
  "status": "partial",
  "note": "A False answer is stable for every pair of units, and both answers are stable for single names; for ratios the code answers True and then False (proved): convertible never forgets the pairs already visited. On the shipped library the second question about every pair of ratios of standard units is answered no (C101_second_question_fails)."
 },
 "C19": {
  "note": "With the cache in use."
 },
 "C15": {
  "note": "For every pair of two-term ratios that is not converted as a whole. Also proved: the dimension of the target is not checked (m/s converts to m)."
 },
 "C16": {
  "note": "Every product or quotient with the same shape, any number of factors; whole-unit rules excluded (C24)."
 },
 "C20": {
  "note": "Every decoration; limit proved: a closing parenthesis belonging to the unit itself is stripped too (C20_final_parenthesis)."
 },
 "C21": {
  "status": "partial",
  "note": "Volume to weight for every state; weight to volume always raises (proved): the code keeps the pair (factor, path)."
 },
 "C22": {
  "status": "partial",
  "note": "Names, in every reachable state; false for ratios (proved): their factor is remembered as a number."
 },
 "C23": {
  "note": "All names of the four scales; spellings added by the loader (CELSIUS) raise KeyError (proved)."
 },
 "C24": {
  "note": "When nothing is remembered about the pair and the terms are not both temperatures; limits proved."
 },
 "C26": {
  "note": "C26_percentage: every state a session leaves; C26_shipped: every built-in name of the shipped library (the name None is not found in this way)."
 },
 "C27": {
  "note": "Names in every reachable state, products when nothing is remembered; also ratios are accepted when the first term converts (proved)."
 },
 "C54": {
  "note": "Any chain of any length; decimal constants exact."
 },
 "C25": {
  "note": "For every network, memory and setting; counts _converter/_get_conversion levels, not interpreter frames."
 },
 "C44": {
  "note": "set_parallel, set_user_folder and set_fvf are shown not to save (C44_not_saved); JSON round trip trusted."
 },
 "C45": {
  "status": "partial",
  "note": "False as stated: dying while parameters.ini is being written makes every later import raise (C45_fails), also while the backup is written if the banner is pending. Proved: the other crash points are safe."
 },
 "C47": {
  "note": ""
 },
 "C48": {
  "status": "partial",
  "note": "False as stated for every existing folder except '/': operator precedence in set_user_folder (C48_fails). Proved: exact characterisation, default folder, missing folder."
 },
 "C46": {
  "note": "Also: the dictionary of names differs in one combination (C46_dictionary characterises, C46_dictionary_fails shows it). cloudpickle installed."
 },
 "C57": {
  "status": "partial",
  "note": "False as stated: exact characterisation of the combinations of files from which the import raises (C57_exact), reached by a crash during a rebuild and permanent (C57_fails, C57_stuck_forever)."
 },
 "C58": {
  "status": "partial",
  "note": "False as stated: a start that takes the network from its cache never reads the saved memory (C58_fails), load(path) needs the default file (C58_path_fails). Proved: load() after save()."
 },
 "C56": {
  "status": "partial",
  "note": "Exact characterisation proved (C56_exact); 'accepts nothing else' proved; 'every product of known names' is false when a known compound name has unknown parts, e.g. 1/s*m (C56_fails)."
 },
 "C52": {
  "status": "partial",
  "note": "False as stated: three shipped conversions have none back (C52_shipped gives exactly which, C52_fails). Proved for every dictionary under conditions on the _REVERSE flags (C52_two_way_partial)."
 },
 "C53": {
  "status": "partial",
  "note": "Proved for every prefix but K, which is 1000 whatever the order (C53_fails). Metric, data and oil field prefixes, both directions."
 },
 "C55": {
  "status": "partial",
  "note": "False as stated (C55_fails: psi gauge to psi directly or through absolute psi). Proved for chains that avoid three pairs of gauge short cuts."
 },
 "C61": {
  "status": "partial",
  "note": "False as stated (C61_fails: UK gallon, gill, ounce). Proved for chains that avoid six pairs of units."
 },
 "C63": {
  "status": "partial",
  "note": "False as stated (C63_fails: gallon to weight ounce through 'ounce'). Proved up to eight listed pairs of kinds that share names or conversions."
 },
 "C38": {
  "status": "partial",
  "note": "False as stated: percentages are divided by 100 twice (C38_percentages_fail), scales with different zeros are added as amounts (C38_temperatures_fail), and after a first conversion of ratio units the sum comes in the second unit (C38_history_fails). Proved for all other quantities of proportional units in every later state (C38_sum_partial, C38_first_unit, C38_commutes_partial), and that the sum exists with BFS on any network whatever was converted or asked before (C38_adds_bfs)."
 },
 "C39": {
  "status": "partial",
  "note": "Coherence of the six comparisons in every state (C39_coherent), agreement with amounts, symmetry and transitivity on consistent networks. Fails for units of the user that cannot be converted: raw values are compared (C39_user_units_fail)."
 },
 "C40": {
  "status": "partial",
  "note": "Sums of two percentages and rounding are wrong by a factor of 100 (C40_sum_fails, C40_round_fails); proved with numbers and dimensionless operands. Percentages given as fractions and back (C40_given)."
 },
 "C41": {
  "note": "For every valid quantity of every class."
 },
 "C42": {
  "status": "partial",
  "note": "False for names with a backslash (C42_backslash_fails) and with a name argument (C42_name_fails); proved for all other strings, with the conditions under which units returns (C42_returns)."
 },
 "C43": {
  "status": "partial",
  "note": "False for ambiguous names of the base class (C43_ambiguous_fails); proved for quantities of the unit classes on consistent networks and in every later state."
 },
 "C65": {
  "status": "partial",
  "note": "Names of units only (not compound units). False when the conversion exists in one direction only (C65_one_way_fails)."
 },
 "C68": {
  "note": "All operations modelled; conversions with .to() for quantities of named classes."
 },
 "C72": {
  "status": "partial",
  "note": "Proved when the second unit converts to the first; when only the first converts to the second the sign is reversed (C72_reversed_fails)."
 },
 "C74": {
  "status": "partial",
  "note": "The number is right (C74_ratio_partial); the unit of a ratio of equal units is a new user unit a/a (C74_unit_fails)."
 },
 "C66": {
  "status": "partial",
  "note": "Proved for units that are the same or that the library says to convert; units that do not convert are not refused, raw numbers are used (C66_unrelated_fails)."
 },
 "C67": {
  "status": "partial",
  "note": "Proved when the class is the first of the dictionary that has the unit; otherwise the class changes (C67_class_fails)."
 },
 "C69": {
  "status": "partial",
  "note": "Proved for names; for ratios the value silently comes back unconverted (C69_ratio_fails)."
 },
 "C70": {
  "status": "partial",
  "note": "Never None with the switch on: all inputs and states. Equality of all other results: names; fails for temperature gradients (C70_gradients_fail)."
 },
 "C73": {
  "status": "partial",
  "note": "Proved for names; false for ratios (C73_ratio_fails). A unit and itself: every unit, products and ratios included, after questions about names (C73_self_partial); false after a question about ratios that ran into the recursion limit (C73_self_fails)."
 },
 "C75": {
  "note": "All modelled operations, also when they raise."
 },
 "C64": {
  "status": "partial",
  "note": "False for volumes (C64_volume_fails: a UK gallon is 128 or 160 fluid ounces). Proved for the units of every quantity except pressure, volume and weight (volumes and weights share the name ounce), under any history of conversions, for single names that are not dates or dimensionless. C64_there_and_back_partial: the answers are found, not assumed, after the import and any conversions and questions."
 },
 "C76": {
  "status": "partial",
  "note": "False for the light year (C76_light_year_fails: off by a factor 60). Proved for 63 names of lengths, times, areas, energies, amounts of data, velocities and forces. C76_exact: the answer is found, not assumed."
 },
 "C71": {
  "status": "partial",
  "note": "Proved for quantities whose forms are told apart by their kinds (velocities, data rates, areas per time, ...), for every such network and history; C71_sizes_fails shows what goes wrong beyond: matching ignores signs, and swapped ratios are inverted."
 },
 "C77": {
  "status": "partial",
  "note": "Positive exponents, decimals with either mark, scientific notation; '1e-5' is rejected and '1,234.5' is read as 1.2345 (both proved). Numbers are exact rationals: float rounding is not modelled."
 },
 "C78": {
  "status": "partial",
  "note": "Exact for names; three built-in units (REm³, UKounce, USounce) are refused (proved)."
 },
 "C79": {
  "note": "For any dictionary that has the needed kinds, and for the shipped one, whose loading is proved to succeed."
 },
 "C80": {
  "status": "partial",
  "note": "Names shared by two quantities are exactly: ounces (Volume, Weight), F (Temperature, Capacitance), six gradients (Density, PressureGradient), ohms (Resistance, Impedance): proved complete and real."
 },
 "C81": {
  "status": "partial",
  "note": "Names of one quantity, ratios of two names without signs; 'F' is a Temperature and every impedance a Resistance (proved)."
 },
 "C82": {
  "status": "partial",
  "note": "Units that are names or powers of names. False for 1/q of a power (C82_inverse_fails: 'ft2-1' cannot be read afterwards), for q ** Dimensionless(n) (C82_exponent_fails: the unit is kept), and for q ** 0 in the shipped library (C82_zero_fails: a user unit called 'Dimensionless')."
 },
 "C83": {
  "status": "partial",
  "note": "False when the second unit is a ratio (C83_compound_fails) and for a plain number over a quantity (C83_inverse_fails: raises). Proved for a second unit that is a name and no repeated factors."
 },
 "C84": {
  "status": "partial",
  "note": "False for percentages (C84_percent_fails: the rounded fraction is taken as the percentage). Exact rationals: binary floating point is not modelled."
 },
 "C85": {
  "status": "partial",
  "note": "Without a precision equals never answers (C85_default_fails: int(None)); a percentage and a number fail (C85_percent_fails). Proved for quantities of the unit classes in a unit that their class lists first."
 },
 "C86": {
  "status": "partial",
  "note": "The amount, and the unit when the library finds a conversion; the class is often UserUnits (C86_class_fails), and a product without conversion is left as it is (C86_unit_fails)."
 },
 "C87": {
  "status": "partial",
  "note": "False for eleven quantities (C87_apart_fails: a Hertz and a turn per minute, a centipoise and a Poise do not convert). Proved for 21 quantities; every unit converts to exactly one of 53 hubs."
 },
 "C88": {
  "status": "partial",
  "note": "Single names of quantities without conversions that depend on fvf or density (not densities, pressure gradients, dimensionless, dates); volumes and weights with a formation volume factor set (C88_bulk_partial) but for the drams, where the default search finds no conversion although one exists (C88_dram_fails: a weight ounce to 'dr'); BFS, lean and hybrid search; calls before are conversions and questions. convertible says yes for all these pairs whatever was asked before (C88_convertible_partial, C88_convertible_bulk_partial). C88_convertible_exactly_partial: convertible says yes exactly where conversions join the two names."
 },
 "C89": {
  "status": "partial",
  "note": "False where quantities share a name (C89_capacitance_fails: a Farad is converted into degrees Celsius). Proved up to the merged kinds of C63, for single names of ordinary quantities. C89_convertible_partial: convertible says no as well, after any history. C88_convertible_apart: the same for every class but numbers, percentages and dates, where no conversions join the two names."
 },
 "C90": {
  "status": "partial",
  "note": "Single prefixed names. Any two prefixes, exactly: every unit but volumes and gauge bars (C90_prefixes_partial, C90_bulk_partial). Volumes: exactly between a prefix and none (C90_volume_partial), to one part in a million between two prefixes (C90_volumes_partial: the volume network contradicts itself slightly, C61). The prefix 'K' is not the prefix kilo (C53)."
 },
 "C91": {
  "note": "21 names of the four scales."
 },
 "C92": {
  "note": "Ordinary single names (not dimensionless, not dates, not a volume and a weight)."
 },
 "C93": {
  "status": "partial",
  "note": "27 names with their standard sizes (C93_exact); there and back for every two joined built-in weights. Single names; under lean search a weight ounce to a dram is excluded (it is not found, C88_dram_fails). C93_tonne_fails: 't' is a long ton, a grain 64.7989 mg."
 },
 "C94": {
  "status": "partial",
  "note": "Direct conversions: any network, any history, BFS, lean_BFS and hybrid_BFS (C94_direct, C94_function); found for BFS and hybrid_BFS (C94_found). Fewest steps: BFS on any network (C94_shortest), every search but DFS on the shipped library (C94_shipped). Single ordinary names. DFS does take detours: C94_dfs_fails."
 },
 "C95": {
  "status": "partial",
  "note": "Pressures outside gaugeNames, names without '/', any history, any search but DFS; 19 exact sizes (C95_exact), psi to one part in 10^10 (C95_psi). C95_bars_fails: 'bars' is a gauge pressure while 'bar' is absolute, and the factor bar to psi misses a digit."
 },
 "C96": {
  "status": "partial",
  "note": "Any number of factors in the same order, no chain of conversions joining the two whole units (those go through the network: C76, C88), no temperatures, not two ratios of the same two units in the opposite order (C15). Compound units in the history only without the cache."
 },
 "C97": {
  "status": "partial",
  "note": "Shipped library, in any order and nesting. C97_program_partial/C97_compare_partial: units with standard sizes of nine classes, exact amounts; C97_sizes_partial: every single name of 23 classes with proportional units, joined by built-in conversions, by sizes fixed once for all processes. Not covered: temperatures and gauge pressures (no common zero), volumes and densities, ratio names, names shared by two classes, products and quotients of quantities, user units in the dictionary of classes."
 },
 "C98": {
  "status": "partial",
  "note": "C98_quantity_partial, C98_units_partial: units with standard sizes of nine classes on the shipped library after any history; C98_missing: any arguments. Fails for percentages, which hold their fraction (C98_percent_fails: convert(units(50,'percentage'),'fraction') is 0.005), and the unit of a quantity given with two units is forgotten (C98_forgotten_fails)."
 },
 "C99": {
  "status": "partial",
  "note": "C99_copy_partial: single built-in names of one class; C99_two_units: units(q, u) is a TypeError. Fails for percentages (C99_percent_fails), for the constructors, which take only the number (C99_constructor_fails: Length(units(2,'km'),'ft') is two feet), and units(5) makes a unit of the user called 'Dimensionless' (C99_bare_fails)."
 },
 "C100": {
  "status": "partial",
  "note": "Units written as one name of one class, volumes and weights included; same-class product and quotient for the nine tables of standard sizes. Classes with products of their own (divTo / mulTo) are in C43. The quotient of two quantities of one class is written in the unit 'a/a'."
 },
 "C101": {
  "status": "partial",
  "note": "Proved after any questions about single names, for ratios of units with standard sizes not joined by conversions as a whole, with the cache on; convertible for any number of factors. False in general: asked a second time, convertible says no about the same two ratios, and a quantity is refused the conversion after the question said yes (C101_second_question_fails, C101_after_question_fails)."
 },
 "C102": {
  "status": "partial",
  "note": "67 volumes and 10 reservoir volumes with their standard sizes, single names, with the answer found (C102_exact, C102_reservoir, C102_formation) and in any reachable state (C102_sizes). Missing: UK measures below the gallon, whose conversions contradict each other (C102_gill_fails), so the property fails for them; the sizes hold to 1e-6 and not exactly (C102_gill_fails: a cubic meter is 6.289814 barrels)."
 },
 "C103": {
  "status": "partial",
  "note": "Factors in the same order, no chain of conversions joining the two whole units, volumes of C102 and units with a standard size; convert after any questions about single names, or after anything without the cache (C103_rates); quantities, their quotients and convertible with the cache on after questions about single names. False in general: C103_second_question_fails, C103_after_question_fails."
 },
 "C104": {
  "status": "partial",
  "note": "All quantities but Density, PressureGradient, Dimensionless, Percentage, Date; names without '/' and '*'; whatever was asked before. Any two spellings, exactly: all but volumes and gauge pressures (C104_spellings_partial, C104_convertible_partial, C104_program_partial). A name and its spelling, exactly: also volumes and gauge pressures (C104_respelled_partial). Any two spellings of a volume to one part in a million (C104_volume_partial), but for UK measures below the gallon. Names that are volumes and weights (ounces) need a density. Every spelling is joined to its name in one step, both ways (C104_joined). 'psi' and 'bar' are listed both as gauge and as absolute pressures and are taken as absolute only."
 },
 "C105": {
  "status": "partial",
  "note": "Every constant: class, unit, value one, nothing changed (C105_constants). The constant converted to the unit of its own name is one: all but the ohm (a name of two quantities); constants whose name is no unit ('torr', 'watt') have nothing to convert to."
 },
 "C106": {
  "status": "partial",
  "note": "Generic on any network: direct pair -> the direct conversion; one unit between -> a path of at most two conversions; BFS/hybrid -> whenever joined. On the shipped library the sizes are exact for the listed names (Spec/Compounds: 29 lists); the default lean search misses some compound pairs farther apart (not listed: 'cm*cm' to 'm*m', 'kW*h' to 'W*h'), densities and pressures are not listed. False for the microsip (C106_microsip_fails): 'usip' is listed as a spelling of '1/psi'. For quantities: C106_quantity_partial (q.to(u) of the same lists)."
 },
 "C107": {
  "note": "Different classes: the tuple of the terms, any number, any state (C107_unlike, C107_sum_unlike). False when the class is already in the tuple: every other entry loses its unit (`result += each`, C107_lost_fails), then nothing more can be added (C107_again_fails); a quantity minus a tuple forgets the signs (C107_minus_fails).",
  "status": "partial"
 },
 "C108": {
  "note": "On the shipped library: exact for the nine tables of standard sizes, and by sizes common to all histories for every single name of the 23 classes of proportional units (C108_sizes_partial), any list, any history. Other units (offset scales, compound names) are not covered.",
  "status": "partial"
 },
 "C109": {
  "note": "On the shipped library: exact for the nine tables of standard sizes, and by sizes common to all histories for every single name of the 23 classes of proportional units (C109_sizes_partial), any list, any history; temperatures are in C116. Quantities of different classes cannot be ordered: TypeError (C109_mixed).",
  "status": "partial"
 },
 "C110": {
  "note": "Number and unit in either box, unit alone, spaces: proved for every way of reading numbers. False for a row that is not understood: the message is overwritten at once with 'None' (C110_message_fails).",
  "status": "partial"
 },
 "C111": {
  "note": "`is_numeric`/`get_number` are parameters; a text that is no number given to `convert` is a ValueError in the model. Exact answers on the shipped library for the nine tables of standard sizes."
 },
 "C112": {
  "note": "Accepted answers, refused answers, the proposed value: proved. False when the dialog is cancelled: False is stored and UnboundLocalError raised (C112_cancel_fails); after a refused unit without an earlier factor the converter keeps 1 (C112_refused_fails).",
  "status": "partial"
 },
 "C113": {
  "note": "Up to a minute. False beyond: the seconds are the total minus the minutes (two minutes are '2:118'), and hours are never shown because `> 60` is tested first.",
  "status": "partial"
 },
 "C114": {
  "note": "While the same path is shown. False for the next path: the place reached in the old one is kept, so part of a shorter path may be shown, from its middle (C114_next_fails).",
  "status": "partial"
 },
 "C115": {
  "note": "Proved for whole numbers of the units NumPy knows: of the built-in times only h, s and the prefixed seconds. False otherwise: 'day', 'hour', 'year', ... raise TypeError (C115_names_fails), fractions ValueError (C115_fraction_fails), the difference of two dates is None and comparing dates raises AttributeError (C115_dates_fails). `time + date` gives a tuple and is not modelled.",
  "status": "partial"
 },
 "C116": {
  "note": "Changes of scale, comparisons, max, min, sorted: proved for every name of the four scales. False for sums: the readings are added on the scale of the first, so the sum is off by the zero of that scale and depends on the order (C116_add_fails: 20 Celsius + 1 Kelvin is 21 kelvins, 1 Kelvin + 20 Celsius is 294.15).",
  "status": "partial"
 },
 "C117": {
  "note": "C117_elements without conditions; C117_exact gives the exact numbers for the units with a standard size on the shipped library. Where an element divides by zero NumPy would warn and put infinity; the model has the exception of the number."
 },
 "C118": {
  "note": "C118_elements, C118_compare, C118_item, C118_lengths without conditions on the state. Partial: the amounts are proved exact for units with a standard size and proportional classes; `to` of plain numbers and percentages, and products, are not in the array programs. False: q[0] of a quantity of one number raises TypeError though len(q) is 1 (C118_scalar_item_fails); iterating gives bare numbers, for percentages not those shown (C118_iter_fails).",
  "status": "partial"
 },
 "C119": {
  "status": "partial",
  "note": "Arguments, refusals, what stays, get_density: every state. Once a density is set, whatever is asked and whatever densities are set in any order, the library is as if the last one had been set first (C119_last), and conversions other than between volumes and weights do not look at it (C119_nothing_else): every state. Amounts after import, to one part in a million: every volume to every weight with a standard size (C119_weight, C119_history). A density given in any weight per volume, as a number or as a quantity, is stored in g/cm3 (C119_given, C119_given_quantity; C119_sizes_partial and C119_quantity_partial are steps to them). Partial: C119_given asks that only conversions between single names came before. A zero or negative density is accepted; a weight to a volume raises (C21)."
 },
 "C120": {
  "status": "partial",
  "note": "The number set, used by the converter in both directions, and given back by get_fvf to four decimals. False: a text that is no number, or a NumPy number, is ignored without an error and kept in the settings only (C120_refused_fails); get_fvf raises AttributeError when no factor is set, even when the settings hold a saved one (C120_get_fails); factors of zero and below are accepted."
 },
 "C121": {
  "status": "partial",
  "note": "Proved: when the window opens (exactly), honest ticks for the algorithm, cache, verbose, path and parallel entries over every history, the algorithm chosen, 'repeat search'. False: start_gui() raises AttributeError after set_parallel('processes') (C121_opens_fails); 'Rebuild on next start' is shown off when it is on, and afterwards always the opposite of the setting (C121_rebuild_partial, C121_rebuild_fails)."
 },
 "C122": {
  "status": "proved",
  "note": "For names without backslash, line ends or both kinds of quotes (C42_backslash_fails shows what a backslash does). How numbers are written is a parameter that `number` inverts; floats are exact, so the rounding of a percentage stored divided by 100 is not seen."
 },
 "C123": {
  "status": "partial",
  "note": "The assignments change one field and nothing else. False: any name is accepted as unit of any class, and the number of a percentage is taken as a fraction (C123_fails)."
 },
 "C124": {
  "status": "partial",
  "note": "Reading: every number, every two signs that are no digits, signs, parentheses, capitals, 'e' or 'j', given or found (C124_marks, C124_negative). Refusal: every group after the first and before the decimal mark (C124_refused). False otherwise: separators among the decimals are dropped, a first group of any length is accepted, and '(1,234)' is refused although '(1,234.5)' and '-1,234' are read (C124_groups_fail). Exact rationals: binary floating point is not modelled."
 },
 "C125": {
  "note": "Refusals exactly characterised, and unchanged state (C125_refused); quantities as texts (C125_quantity); the frame (C125_accepted); the calls afterwards, with BFS, names without a direct conversion and nothing remembered, or the cache off (C125_called; the limits for other states are those of C09). The late refusal is C125_number_accepted."
 },
 "C126": {
  "status": "partial",
  "note": "Proved for every history of starts, killed at any of their writes or not, and of settings (C126_kept, C126_memory_on), with cloudpickle installed and one user folder. False when the closing itself is interrupted, since the file is emptied first (C126_fails, C126_killed_closing says what is left), and for an import when nothing was ever saved in the folder (C126_import_fails). After a reload opening the window removes all caches (C126_reload)."
 },
 "C127": {
  "note": "Single names that are neither dates, dimensionless names nor percentages (those are given any unit by design, C26, C27), with BFS, lean_BFS or hybrid_BFS at the time of the question."
 },
 "C128": {
  "note": "Every calculation but those that add or subtract two percentages (false: C128_sum_fails, ten percent and twenty percent are 0.3 percent) or fractions under two names; comparisons, powers and remainders are not part of the calculations. The library is left as it is.",
  "status": "partial"
 },
 "C129": {
  "status": "partial",
  "note": "Exact for the nine tables of standard sizes, by sizes common to all histories for every single name of the 23 classes of proportional units, exact for temperatures, any list and any history. False in a list with an entry of another class before: TypeError (C129_mixed_fails); a number is found where any unit has that number (C129_number_fails). An entry that is the object itself, which Python takes unasked, is compared like the others."
 },
 "C130": {
  "status": "partial",
  "note": "C130_share: every quantity of every class, every share, in every state of the shipped library. Within computations: units with standard sizes of nine classes, exact amounts, and every single name of 23 classes with proportional units by sizes common to all histories. The shares are those of C128 (no sums of two percentages)."
 },
 "C131": {
  "note": "C131_each: every quantity, tuple and state, with errors. C131_shares, C131_distributes, C131_quotients, C131_numbers: what the entries are, for every class and every share, in every state of the shipped library (numbers: every state). C131_not_divided: the error. Entries that are tuples themselves or arrays are not modelled."
 },
 "C132": {
  "status": "partial",
  "note": "Numbers: every class, unit and state (C132_numbers, C132_zero). Quantities: units with standard sizes of nine classes, exact amounts, and every single name of 23 classes with proportional units by sizes common to all histories; other units under the hypotheses of C66. C132_whole: what the specification of being taken apart comes to."
 },
 "C133": {
  "status": "partial",
  "note": "Units with standard sizes of nine classes, exact amounts, with the bounds; every single name of 23 classes with proportional units by sizes common to all histories; temperatures under every name of the scales (C133_temperatures: the mean is exact although sums of temperatures are not, C116). Gauge pressures and names that are ratios are not covered."
 },
 "C134": {
  "status": "proved",
  "note": "C134_truth: every quantity and list. C134_amount_fails records that this differs from numbers: no metres are true, 5 percent false."
 }
}
import Verif.Model.Loader

/-
The data that ships with the library, transcribed by `tools/shipped.py` from the text of
`/repo/src/unyts/dictionaries.py` (raw dictionary and prefixes) and `/repo/src/unyts/database.py:358-556` (conversions
written one by one). Floating point constants are the decimal numbers they spell.
-/
namespace Unyts

/-- the dictionary `_load_dictionary` returns (dictionaries.py:86-518) -/
def rawDictionary : RawDict := [
  (s!!"Time", .names []),
  (s!!"Time_NAMES_REVERSE", .table [
    (s!!"nanosecond", [s!!"ns"]), (s!!"millisecond", [s!!"ms"]), (s!!"second", [s!!"s", s!!"ss", s!!"sec"]),
    (s!!"minute", [s!!"min"]), (s!!"hour", [s!!"h", s!!"hh", s!!"hr", s!!"Wh/W", s!!"Watt hour/Watt"]),
    (s!!"day", [s!!"d", s!!"día", s!!"días", s!!"DíA"]), (s!!"week", [s!!"we", s!!"w", s!!"WE"]),
    (s!!"month", [s!!"mo", s!!"mes", s!!"meses"]), (s!!"year", [s!!"y", s!!"yy", s!!"yyyy", s!!"año"]),
    (s!!"lustrum", []), (s!!"decade", []), (s!!"century", [s!!"centuries"])]),
  (s!!"Time_PLURALwS_UPPER_REVERSE", .names [
    s!!"nanosecond", s!!"millisecond", s!!"second", s!!"minute", s!!"hour", s!!"day", s!!"week", s!!"month",
    s!!"year", s!!"lustrum", s!!"decade", s!!"century", s!!"min", s!!"año"]),
  (s!!"Time_UPPER_REVERSE", .names [
    s!!"ns", s!!"ms", s!!"ss", s!!"sec", s!!"s", s!!"hh", s!!"hr", s!!"Wh/W", s!!"Watt hour/Watt", s!!"día",
    s!!"días", s!!"DíA", s!!"hh", s!!"hr", s!!"Wh/W", s!!"Watt hour/Watt", s!!"mo", s!!"mes", s!!"meses", s!!"yy",
    s!!"yyyy", s!!"año", s!!"centuries"]),
  (s!!"Time_SI", .names [
    s!!"s"]),
  (s!!"Temperature", .names [
    s!!"C", s!!"K", s!!"F", s!!"R"]),
  (s!!"Temperature_NAMES", .table [
    (s!!"Celsius", [s!!"Centigrade", s!!"C", s!!"deg C", s!!"degC", s!!"degrees C"]),
    (s!!"Fahrenheit", [s!!"F", s!!"deg F", s!!"degF", s!!"degrees F"]),
    (s!!"Rankine", [s!!"R", s!!"deg R", s!!"degR", s!!"degrees R"]),
    (s!!"Kelvin", [s!!"K", s!!"deg K", s!!"degK", s!!"degrees K"])]),
  (s!!"Temperature_UPPER_LOWER", .names [
    s!!"Celsius", s!!"Fahrenheit", s!!"Rankine", s!!"Kelvin", s!!"Centigrade", s!!"deg C", s!!"degC",
    s!!"degrees C", s!!"deg F", s!!"degF", s!!"degrees F", s!!"deg R", s!!"degR", s!!"degrees R", s!!"deg K",
    s!!"degK", s!!"degrees K"]),
  (s!!"TemperatureGradient", .names []),
  (s!!"Volume", .names []),
  (s!!"Volume_SI_UPPER", .names [
    s!!"m3", s!!"m³"]),
  (s!!"Volume_linearSI", .names [
    s!!"sm3", s!!"sm³", s!!"Sm3", s!!"Sm³", s!!"stm3", s!!"stm³", s!!"STm3", s!!"STm³", s!!"rem3", s!!"rem³", s!!"l"]),
  (s!!"Volume_UK_NAMES_REVERSE", .table [
    (s!!"fluid ounce", [s!!"fl oz", s!!"oz", s!!"ounce", s!!"ozUS"]),
    (s!!"gill", [s!!"gi", s!!"gillUS", s!!"giUS", s!!"USgill"]),
    (s!!"pint", [s!!"pt", s!!"pintUS", s!!"ptUS", s!!"USpint"]),
    (s!!"quart", [s!!"qt", s!!"quartUS", s!!"qtUS", s!!"USquart"]),
    (s!!"gallonUS", [s!!"gal", s!!"galUS", s!!"USgal", s!!"USgallon", s!!"gallon", s!!"gallonsUS"]),
    (s!!"gallonUK", [s!!"imperial gallon", s!!"galUK", s!!"UKgal", s!!"UKgallon", s!!"gallonsUK"]),
    (s!!"fluid ounce UK", [s!!"fl oz UK", s!!"ozUK", s!!"ounceUK"]), (s!!"gillUK", [s!!"giUK", s!!"UKgill"]),
    (s!!"pintUK", [s!!"ptUK", s!!"UKpint"]), (s!!"quartUK", [s!!"qtUK", s!!"UKquart"])]),
  (s!!"Volume_NAMES_SPACES_REVERSE", .table [
    (s!!"litre", [s!!"l", s!!"liter", s!!"litro"]),
    (s!!"millilitre", [s!!"ml", s!!"milliliter", s!!"cubic centimeter"]),
    (s!!"centilitre", [s!!"cl", s!!"centiliter"]), (s!!"decilitre", [s!!"dl", s!!"deciliter"]),
    (s!!"cubic meter", [s!!"CM", s!!"m3", s!!"m³"]),
    (s!!"standard cubic meter", [s!!"scm", s!!"sm3", s!!"stm3", s!!"m3", s!!"Sm3", s!!"sm³"]),
    (s!!"cubic centimeter", [s!!"cc", s!!"cm3", s!!"standard cubic centimeter", s!!"cm³"]),
    (s!!"standard cubic centimeter", [s!!"scc", s!!"scm3", s!!"scm³"]),
    (s!!"reservoir cubic meter", [s!!"rem3", s!!"REm3", s!!"Rem3", s!!"rem³"]),
    (s!!"reservoir cubic centimeter", [s!!"recc", s!!"recm3", s!!"recm³"]),
    (s!!"cubic thou", [s!!"th3", s!!"th2*th", s!!"th*th2", s!!"th³"]),
    (s!!"cubic tenth", [s!!"te3", s!!"te2*te", s!!"te*te2", s!!"te³"]),
    (s!!"cubic inch", [s!!"cubic inches", s!!"in3", s!!"in2*in", s!!"in*in2", s!!"in³"]),
    (s!!"cubic foot", [s!!"cubic feet", s!!"ft3", s!!"ft³", s!!"cf", s!!"ft2*ft", s!!"ft*ft2", s!!"pie cúbico", s!!"pie cubico", s!!"pc", s!!"pies cúbicos", s!!"pies cubicos"]),
    (s!!"cubic yard", [s!!"yd3", s!!"yd³", s!!"yd2*ydyd*yd2"]),
    (s!!"cubic chain", [s!!"ch3", s!!"ch³", s!!"ch2*ch", s!!"ch*ch2"]),
    (s!!"cubic rod", [s!!"rd3", s!!"rd³", s!!"rd2*rd", s!!"rd*rd2"]),
    (s!!"cubic furlong", [s!!"fur3", s!!"fur³", s!!"fur2*fur", s!!"fur*fur2"]),
    (s!!"cubic mile", [s!!"mi3", s!!"mi³", s!!"mi2*mi", s!!"mi*mi2"]),
    (s!!"cubic league", [s!!"lea3", s!!"lea³", s!!"lea2*lea", s!!"lea*lea2"]),
    (s!!"standard cubic foot", [s!!"scf", s!!"cf"]), (s!!"barrel", [s!!"bbl", s!!"stb", s!!"oil barrel"]),
    (s!!"reservoir barrel", [s!!"rb", s!!"reb"]),
    (s!!"standard barrel", [s!!"stb", s!!"stbo", s!!"stbw", s!!"stbl", s!!"oil barrel"])]),
  (s!!"Volume_UPPER", .names [
    s!!"sm3", s!!"sm³", s!!"stm3", s!!"stm³", s!!"rem3", s!!"rem³", s!!"kstm3", s!!"kstm³", s!!"Mstm3", s!!"Mstm³"]),
  (s!!"Volume_PLURALwS_UPPER_LOWER", .names [
    s!!"litre", s!!"millilitre", s!!"centilitre", s!!"decilitre", s!!"cubic meter", s!!"standard cubic meter",
    s!!"cubic centimeter", s!!"standard cubic centimeter", s!!"reservoir cubic meter",
    s!!"reservoir cubic centimeter", s!!"cubic thou", s!!"cubic tenth", s!!"cubic inch", s!!"cubic foot",
    s!!"cubic yard", s!!"cubic chain", s!!"cubic rod", s!!"cubic furlong", s!!"cubic mile", s!!"cubic league",
    s!!"standard cubic foot", s!!"barrel", s!!"reservoir barrel", s!!"standard barrel", s!!"fluid ounce",
    s!!"gill", s!!"pint", s!!"quart", s!!"gallonUS", s!!"gallonUK", s!!"fluid ounce UK", s!!"gillUK", s!!"pintUK",
    s!!"quartUK", s!!"fl oz", s!!"oz", s!!"ounce", s!!"gallon", s!!"imperial gallon", s!!"barrel", s!!"gal",
    s!!"oil barrel", s!!"oil gallon", s!!"USgallon", s!!"UKgallon", s!!"USounce", s!!"UKounce",
    s!!"cubic centimeter", s!!"standard cubic centimeter", s!!"liter", s!!"milliliter", s!!"centiliter",
    s!!"deciliter"]),
  (s!!"Volume_OGF", .names [
    s!!"scf", s!!"cf", s!!"ft3", s!!"ft³", s!!"stb", s!!"bbl", s!!"rb", s!!"reb", s!!"stbo", s!!"stbw", s!!"stbl"]),
  (s!!"Volume_oilgas_UPPER", .names [
    s!!"sm3", s!!"Sm3", s!!"stm3", s!!"STm3", s!!"m3", s!!"rem3", s!!"REm3", s!!"ksm3", s!!"Msm3", s!!"Gsm3",
    s!!"sm³", s!!"Sm³", s!!"stm³", s!!"STm³", s!!"m³", s!!"rem³", s!!"REm³", s!!"ksm³", s!!"Msm³", s!!"Gsm³",
    s!!"scf", s!!"cf", s!!"ft3", s!!"Mscf", s!!"MMscf", s!!"Bscf", s!!"Tscf", s!!"Mcf", s!!"MMcf", s!!"Bcf",
    s!!"Tcf", s!!"stb", s!!"bbl", s!!"rb", s!!"reb", s!!"Mstb", s!!"MMstb", s!!"Bstb", s!!"Tstb", s!!"Mbbl",
    s!!"MMbbl", s!!"Mrb", s!!"MMrb"]),
  (s!!"Volume_product_NAMES_REVERSE", .table [
    (s!!"m3", [s!!"m³", s!!"m2*m", s!!"m*m2", s!!"m²*m", s!!"m*m²"]),
    (s!!"cm3", [s!!"cm³", s!!"cm2*cm", s!!"cm*cm2", s!!"cm²*cm", s!!"cm*cm²"]),
    (s!!"yd3", [s!!"yd³", s!!"yd2*yd", s!!"yd*yd2", s!!"yd²*yd", s!!"yd*yd²"]),
    (s!!"ft3", [s!!"ft³", s!!"ft2*ft", s!!"ft*ft2", s!!"ft²ft", s!!"ft*ft²"]),
    (s!!"in3", [s!!"in³", s!!"in2*in", s!!"in*in2", s!!"in²*in", s!!"in*in²"])]),
  (s!!"Length", .names []),
  (s!!"Length_NAMES_REVERSE_UPPER", .table [
    (s!!"meter", [s!!"m", s!!"metre", s!!"metro"]), (s!!"parsec", []), (s!!"astronomical unit", [s!!"au"]),
    (s!!"light year", [s!!"ly", s!!"lyr"])]),
  (s!!"Length_SI", .names [
    s!!"m"]),
  (s!!"Length_UK_NAMES_REVERSE", .table [
    (s!!"thou", [s!!"th"]), (s!!"tenth", [s!!"te", s!!"0.1 in", s!!"0.1in", s!!".1in"]),
    (s!!"inch", [s!!"in", s!!"\""]), (s!!"foot", [s!!"feet", s!!"ft", s!!"'"]), (s!!"yard", [s!!"yd"]),
    (s!!"chain", [s!!"ch"]), (s!!"rod", [s!!"rd"]), (s!!"furlong", [s!!"fur"]), (s!!"mile", [s!!"mi"]),
    (s!!"league", [s!!"lea"]), (s!!"nautical mile", [s!!"nmi"]), (s!!"nautical league", [s!!"nlea"])]),
  (s!!"Length_UK_UPPER", .names [
    s!!"thou", s!!"tenth", s!!"inch", s!!"foot", s!!"yard", s!!"chain", s!!"rod", s!!"furlong", s!!"mile",
    s!!"league", s!!"nautical mile", s!!"nautical league", s!!"feet", s!!"in", s!!"ft", s!!"0.1 in", s!!"0.1in",
    s!!".1in"]),
  (s!!"Area", .names []),
  (s!!"Area_NAMES_REVERSE_UPPER", .table [
    (s!!"square centimeter", [s!!"square centimetre", s!!"sq cm", s!!"sqcm", s!!"cm2", s!!"cm²", s!!"sqcentimeter", s!!"cm*cm", s!!"cm3/cm"]),
    (s!!"square meter", [s!!"square metre", s!!"centiare", s!!"sq m", s!!"sqm", s!!"m2", s!!"m²", s!!"sqmeter", s!!"m*m", s!!"m3/m"]),
    (s!!"square decameter", [s!!"square decametre", s!!"are", s!!"sq dam", s!!"sqdam", s!!"dam2", s!!"dam²", s!!"sqdecameter", s!!"dam*dam", s!!"dam3/dam"]),
    (s!!"square hectometer", [s!!"square hectometre", s!!"hectare", s!!"sq hm", s!!"sqhm", s!!"hm2", s!!"hm²", s!!"sqhectometer", s!!"hm*hm", s!!"hm3/hm"]),
    (s!!"square kilometer", [s!!"square kilometre", s!!"sqkm", s!!"sq km", s!!"km2", s!!"km²"])]),
  (s!!"Area_SI", .names [
    s!!"m2", s!!"m²"]),
  (s!!"Area_UK_NAMES_REVERSE_UPPER", .table [
    (s!!"acre", []),
    (s!!"square thou", [s!!"sq th", s!!"sqth", s!!"th2", s!!"th²", s!!"th*th", s!!"th3/th", s!!"th³/th"]),
    (s!!"square tenth", [s!!"sq te", s!!"sqte", s!!"te2", s!!"te²", s!!"te*te", s!!"te3/te", s!!"te³/te"]),
    (s!!"square inch", [s!!"sq in", s!!"sqin", s!!"in2", s!!"in²", s!!"in*in", s!!"in3/in", s!!"in³/in"]),
    (s!!"square foot", [s!!"sq ft", s!!"sqft", s!!"ft2", s!!"ft²", s!!"ft*ft", s!!"ft3/ft", s!!"ft³/ft"]),
    (s!!"square yard", [s!!"sq yd", s!!"sqyd", s!!"yd2", s!!"yd²", s!!"yd*yd", s!!"yd3/yd", s!!"yd³/yd"]),
    (s!!"square chain", [s!!"sq ch", s!!"sqch", s!!"ch2", s!!"ch²", s!!"ch*ch", s!!"ch3/ch", s!!"ch³/ch"]),
    (s!!"square rod", [s!!"sq rd", s!!"sqrd", s!!"rd2", s!!"rd²", s!!"rd*rd", s!!"rd3/rd", s!!"rd³/rd"]),
    (s!!"square furlong", [s!!"sq fur", s!!"sqfur", s!!"fur2", s!!"fur²", s!!"fur*fur", s!!"fur3/fur", s!!"fur³/fur"]),
    (s!!"square mile", [s!!"sq mi", s!!"mi2", s!!"mi²", s!!"sqmile", s!!"mi*mi", s!!"mi3/mi", s!!"mi³/mi"]),
    (s!!"square league", [s!!"sq lea", s!!"sqlea", s!!"lea2", s!!"lea²", s!!"lea*lea", s!!"lea3/lea", s!!"lea³/lea"])]),
  (s!!"Pressure", .names []),
  (s!!"Pressure_NAMES_REVERSE", .table [
    (s!!"Pascal", [s!!"Pa"])]),
  (s!!"Pressure_NAMES_REVERSE_UPPER_SPACES", .table [
    (s!!"absolute psi", [s!!"psia", s!!"lb/in2", s!!"lb/in²", s!!"absolute pound/square inch", s!!"psi absolute", s!!"lpca", s!!"libras/pulgada cuadrada absoluta"]),
    (s!!"psi gauge", [s!!"psi", s!!"pound/square inch", s!!"psig", s!!"gauge psi", s!!"lpc", s!!"lpcm", s!!"libras/pulgada cuadrada"]),
    (s!!"absolute bar", [s!!"bara", s!!"barsa", s!!"abs bar", s!!"bar absolute"]),
    (s!!"bar gauge", [s!!"bar", s!!"barg", s!!"gauge bar", s!!"bars", s!!"barsg"]),
    (s!!"atmosphere", [s!!"atm", s!!"atma"]), (s!!"Pascal", [s!!"Newton/m2", s!!"Newton/m²"]),
    (s!!"kPa", [s!!"KPa", s!!"kilopascal", s!!"kpa"]), (s!!"hPa", [s!!"hectopascal"]),
    (s!!"Torr", [s!!"millimeters of mercury"]), (s!!"millimeters of mercury", [s!!"mmHg"]),
    (s!!"kilogram/square centimeter", [s!!"kg/cm2", s!!"Kg/cm2", s!!"kg/cm²", s!!"kg/cm²"])]),
  (s!!"Pressure_SI", .names [
    s!!"Pa", s!!"bara", s!!"barsa", s!!"bar", s!!"barg"]),
  (s!!"PressureGradient", .names [
    s!!"psi/ft", s!!"psi/m", s!!"bar/m", s!!"bar/ft"]),
  (s!!"PressureGradient_NAMES_REVERSE", .table [
    (s!!"psi/ft", [s!!"psia/ft", s!!"psig/ft"]), (s!!"psi/m", [s!!"psia/m", s!!"psig/m"]),
    (s!!"bar/m", [s!!"bars/m", s!!"barsa/m", s!!"bara/m", s!!"barsg/m", s!!"barg/m"]),
    (s!!"bar/ft", [s!!"bars/ft", s!!"barsa/ft", s!!"bara/ft", s!!"barsg/ft", s!!"barg/ft"])]),
  (s!!"Weight", .names []),
  (s!!"Weight_NAMES_REVERSE", .table [
    (s!!"gram", [s!!"g"]), (s!!"kilogram", [s!!"kg"]), (s!!"milligram", [s!!"mg"]),
    (s!!"microgram", [s!!"ug", s!!"µg"]), (s!!"metric ton", [s!!"Tonne"]), (s!!"g-mol", [s!!"g-moles"]),
    (s!!"Kg-mol", [s!!"Kg-moles"])]),
  (s!!"Weight_UK_NAMES_REVERSE", .table [
    (s!!"grain", [s!!"gr"]), (s!!"pennyweight", [s!!"pwt", s!!"dwt"]), (s!!"dram", [s!!"dr", s!!"dramch"]),
    (s!!"ounce", [s!!"oz", s!!"wt oz", s!!"weight ounce"]), (s!!"pound", [s!!"lb", s!!"#", s!!"libra"]),
    (s!!"stone", [s!!"st"]), (s!!"quarter", [s!!"qr", s!!"qrt"]),
    (s!!"short hundredweight", [s!!"US hundredweight", s!!"UScwt", s!!"swtUS"]),
    (s!!"long hundredweight", [s!!"UK hundredweight", s!!"UKcwt", s!!"cwt", s!!"swtUK"]),
    (s!!"short ton", [s!!"USton", s!!"tonUS"]),
    (s!!"long ton", [s!!"t", s!!"UKton", s!!"ton", s!!"tonUK", s!!"Ton"])]),
  (s!!"Weight_PLURALwS_UPPER_LOWER_SPACES", .names [
    s!!"gram", s!!"kilogram", s!!"milligram", s!!"microgram", s!!"metric ton", s!!"g-mol", s!!"Kg-mol", s!!"grain",
    s!!"pennyweight", s!!"dram", s!!"ounce", s!!"pound", s!!"stone", s!!"quarter", s!!"short hundredweight",
    s!!"long hundredweight", s!!"short ton", s!!"long ton", s!!"Tonne", s!!"ton", s!!"UKton", s!!"USton", s!!"lb",
    s!!"libra"]),
  (s!!"Weight_SI", .names [
    s!!"g", s!!"g-mol"]),
  (s!!"Mass", .names [
    s!!"kilogram mass"]),
  (s!!"Mass_NAMES_REVERSE_UPPER_LOWER", .table [
    (s!!"kilogram mass", [s!!"Kgm", s!!"kilogram mass"])]),
  (s!!"Density", .names []),
  (s!!"Density_oilgas", .table []),
  (s!!"Density_NAMES_REVERSE_LOWER_UPPER", .table [
    (s!!"API", [s!!"degrees"]), (s!!"SgG", [s!!"gas gravity", s!!"gas specific gravity", s!!"sgg"]),
    (s!!"SgW", [s!!"water gravity", s!!"sgw"]), (s!!"SgO", [s!!"oil gravity", s!!"sgo"])]),
  (s!!"Density_NAMES_REVERSE_UPPER", .table [
    (s!!"g/cm3", [s!!"g/cc", s!!"g/cm³"]), (s!!"kg/m3", [s!!"Kg/m3", s!!"kg/m³"]), (s!!"lb/ft3", []),
    (s!!"lb/yd3", []), (s!!"psi/ft", []), (s!!"kJ/rem3", [s!!"KJ/rem3", s!!"kJ/rem³"]),
    (s!!"kJ/sm3", [s!!"KJ/sm3", s!!"kJ/sm³", s!!"KJ/stm3", s!!"kJ/stm³"]), (s!!"kJ/m3", [s!!"KJ/m3", s!!"kJ/m³"]),
    (s!!"lb/stb", []), (s!!"psia/ft", [s!!"psi/ft", s!!"psig/ft"]), (s!!"bara/m", [s!!"bar/m", s!!"barg/m"])]),
  (s!!"Compressibility", .names []),
  (s!!"Compressibility_UPPER_NAMES_REVERSE", .table [
    (s!!"1/psi", [s!!"1/psia", s!!"µsip", s!!"usip", s!!"1/psig"]), (s!!"µsip", [s!!"usip"]),
    (s!!"1/bar", [s!!"1/bara", s!!"1/barg"])]),
  (s!!"Rate", .names []),
  (s!!"Rate_NAMES_REVERSE_UPPER_SPACES", .table [
    (s!!"stb/day", [s!!"stbd"]), (s!!"scf/day", [s!!"scfd", s!!"cf/day"]),
    (s!!"sm3/day", [s!!"sm3d", s!!"stm3d", s!!"stm3/day", s!!"sm³/day"]), (s!!"bbl/day", [s!!"bbld"]),
    (s!!"m3/day", [s!!"m3/d", s!!"m³/day"]), (s!!"ft3/day", [s!!"cf/day"])]),
  (s!!"Velocity", .names [
    s!!"kilometer per hour", s!!"mile per hour"]),
  (s!!"Velocity_NAMES_REVERSE_UPPER_LOWER", .table [
    (s!!"kilometer per hour", [s!!"kilometers per hour", s!!"kph", s!!"KPH", s!!"km/hr"]),
    (s!!"mile per hour", [s!!"miles per hour", s!!"mph", s!!"MPH", s!!"mi/hr"])]),
  (s!!"dataBYTE", .names []),
  (s!!"dataBYTE_NAMES_REVERSE", .table [
    (s!!"byte", [s!!"B", s!!"Byte", s!!"BYTE"])]),
  (s!!"dataBYTE_DATA", .names [
    s!!"B", s!!"byte"]),
  (s!!"dataBIT", .names []),
  (s!!"dataBIT_NAMES_REVERSE", .table [
    (s!!"bit", [s!!"b", s!!"Bit", s!!"BIT"])]),
  (s!!"dataBIT_DATA", .names [
    s!!"b", s!!"bit"]),
  (s!!"Viscosity", .names []),
  (s!!"Viscosity_NAMES_REVERSE_UPPER", .table [
    (s!!"centipoise", [s!!"cP"]), (s!!"Poise", [s!!"dyne*s/cm2", s!!"g/cm/s"]),
    (s!!"Pa*s", [s!!"N*s/m2", s!!"kg/m/s"])]),
  (s!!"Permeability", .names []),
  (s!!"Permeability_NAMES_REVERSE", .table [
    (s!!"Darcy", [s!!"D"]), (s!!"millidarcy", [s!!"mD"])]),
  (s!!"Permeability_UPPER_LOWER", .names [
    s!!"Darcy", s!!"millidarcy"]),
  (s!!"Permeability_SI", .names [
    s!!"D"]),
  (s!!"Force", .names []),
  (s!!"Force_NAMES_REVERSE_SPACES_RECURSIVE_UPPER", .table [
    (s!!"Newton", [s!!"N", s!!"newton", s!!"kg*m/s2"]), (s!!"kilogram force", [s!!"kgf", s!!"kilopondio"]),
    (s!!"kilopondio", [s!!"kp"]), (s!!"Dyne", [s!!"dyne", s!!"dyn", s!!"g*cm/s2"])]),
  (s!!"Energy", .names []),
  (s!!"Energy_NAMES_REVERSE_SPACES_UPPER_LOWER", .table [
    (s!!"Joule", [s!!"J", s!!"Watt second", s!!"N*m", s!!"kg*m2/s2", s!!"Joules"]), (s!!"Kilojoule", [s!!"kJ"]),
    (s!!"kilowatt hour", [s!!"kWh", s!!"kW*h", s!!"kilovatio hora"]),
    (s!!"British thermal unit", [s!!"BTU", s!!"british thermal unit"]),
    (s!!"Watt second", [s!!"Ws", s!!"Watt*second", s!!"W*s"]),
    (s!!"Watt hour", [s!!"Wh", s!!"Watt*hour", s!!"W*h"]),
    (s!!"gram calorie", [s!!"cal", s!!"calorie", s!!"Calorie"])]),
  (s!!"Energy_SI", .names [
    s!!"Wh", s!!"Ws"]),
  (s!!"Power", .names []),
  (s!!"Power_NAMES_REVERSE_UPPER", .table [
    (s!!"Horsepower", [s!!"hp"]),
    (s!!"Watt", [s!!"W", s!!"J/s", s!!"VA", s!!"Volt*Ampere", s!!"Watt hour/hour", s!!"V*A", s!!"Wh/h"])]),
  (s!!"Power_SI", .names [
    s!!"W"]),
  (s!!"Voltage", .names []),
  (s!!"Voltage_NAMES_REVERSE_UPPER", .table [
    (s!!"Volt", [s!!"V", s!!"Voltio", s!!"Ampere*Ohm", s!!"Watt/Ampere", s!!"A*ohm", s!!"ohm*A", s!!"Ohm*Ampere", s!!"W/A"])]),
  (s!!"Voltage_SI", .names [
    s!!"V"]),
  (s!!"Current", .names []),
  (s!!"Current_NAMES_REVERSE_UPPER", .table [
    (s!!"Ampere", [s!!"A", s!!"Watt/Volt", s!!"Volt/Ohm", s!!"W/V", s!!"V/ohm"])]),
  (s!!"Current_SI", .names [
    s!!"A"]),
  (s!!"Resistance", .names []),
  (s!!"Resistance_NAMES_REVERSE_UPPER", .table [
    (s!!"Ohm", [s!!"ohm", s!!"Ω", s!!"Volt/Ampere", s!!"V/A", s!!"ohm.m"])]),
  (s!!"Resistance_SI", .names [
    s!!"Ω"]),
  (s!!"Impedance", .names []),
  (s!!"Impedance_NAMES_REVERSE_UPPER", .table [
    (s!!"Ohm", [s!!"ohm", s!!"Ω"])]),
  (s!!"Impedance_SI", .names [
    s!!"Ω"]),
  (s!!"Conductance", .names []),
  (s!!"Conductance_NAMES_REVERSE", .table [
    (s!!"Siemen", [s!!"G", s!!"℧"])]),
  (s!!"Conductance_SI", .names [
    s!!"℧"]),
  (s!!"Conductance_UPPER", .names [
    s!!"Siemen"]),
  (s!!"Capacitance", .names []),
  (s!!"Capacitance_NAMES_REVERSE_UPPER", .table [
    (s!!"Farad", [s!!"F", s!!"Faradio", s!!"Farads", s!!"farads", s!!"Coulomb/Volt", s!!"Q/V"])]),
  (s!!"Capacitance_SI", .names [
    s!!"F"]),
  (s!!"Charge", .names []),
  (s!!"Charge_NAMES_REVERSE_UPPER", .table [
    (s!!"Coulomb", [s!!"Q", s!!"Volt*Farad", s!!"V*F"])]),
  (s!!"Charge_SI", .names [
    s!!"Q"]),
  (s!!"Inductance", .names []),
  (s!!"Inductance_NAMES_REVERSE_UPPER", .table [
    (s!!"Henry", [s!!"L", s!!"H"])]),
  (s!!"Inductance_SI", .names [
    s!!"H"]),
  (s!!"Frequency", .names []),
  (s!!"Frequency_NAMES_REVERSE_UPPER", .table [
    (s!!"Hertz", [s!!"Hz", s!!"hertz", s!!"1/s", s!!"s-1"]), (s!!"RPM", [s!!"rpm", s!!"1/min"])]),
  (s!!"Frequency_SI", .names [
    s!!"Hz"]),
  (s!!"ProductivityIndex", .names []),
  (s!!"ProductivityIndex_NAMES_REVERSE_UPPER", .table [
    (s!!"stb/day/psi", [s!!"STB/DAY/", s!!"stbd/psi", s!!"stbd/psia", s!!"stb/day/psia", s!!"stb/day-psi", s!!"STB/DAY-PSI", s!!"stb/day-psia", s!!"STB/DAY-PSIA", s!!"stb/d/psi"]),
    (s!!"sm3/day/bar", [s!!"SM3/DAY/", s!!"sm3/d/b", s!!"sm3d/bar", s!!"sm3d/bara", s!!"sm3/day/bara", s!!"sm3/day-bar", s!!"SM3/DAY-BAR", s!!"sm3/day-bara", s!!"SM3/DAY-BARA", s!!"sm3/day/barsa"]),
    (s!!"sm3/day/kPa", [s!!"sm3d/kPa", s!!"sm3d/kPa", s!!"sm3/day-kPa", s!!"SM3/DAY-KPA", s!!"sm3/d/kPa"])]),
  (s!!"Acceleration", .names [
    s!!"m/s2", s!!"ft/s2"]),
  (s!!"Dimensionless", .names []),
  (s!!"Dimensionless_fractions_NAMES_REVERSE_UPPER", .table [
    (s!!"fraction", [s!!"ratio", s!!"dimensionless", s!!"unitless", s!!"None", s!!""])]),
  (s!!"Percentage", .names []),
  (s!!"Percentage_NAMES_REVERSE", .table [
    (s!!"percentage", [s!!"%", s!!"perc", s!!"percent", s!!"/100"])]),
  (s!!"Date", .names []),
  (s!!"Date_NAMES_REVERSE_UPPER_PLURALwS", .table [
    (s!!"date", [s!!"dates", s!!"Date", s!!"Dates"])]),
  (s!!"UserUnits", .names []),
  (s!!"otherUnits", .names []),
  (s!!"otherUnits_NAMES_REVERSE_UPPER", .table [
    (s!!"sec/day", [s!!"sec/d"]), (s!!"s2", [s!!"s*s"])])]

/-- `SI` (dictionaries.py) -/
def prefixSI : List (Str × List (Option CExp)) := [
  (s!!"Q", [some (.mul .x (.lit 1000000000000000000000000000000)), some (.mul .x (.lit 1000000000000000000000000000000000000000000000000000000000000)), some (.mul .x (.lit 1000000000000000000000000000000000000000000000000000000000000000000000000000000000000000000))]),
  (s!!"R", [some (.mul .x (.lit 1000000000000000000000000000)), some (.mul .x (.lit 1000000000000000000000000000000000000000000000000000000)), some (.mul .x (.lit 1000000000000000000000000000000000000000000000000000000000000000000000000000000000))]),
  (s!!"Y", [some (.mul .x (.lit 1000000000000000000000000)), some (.mul .x (.lit 1000000000000000000000000000000000000000000000000)), some (.mul .x (.lit 1000000000000000000000000000000000000000000000000000000000000000000000000))]),
  (s!!"Z", [some (.mul .x (.lit 1000000000000000000000)), some (.mul .x (.lit 1000000000000000000000000000000000000000000)), some (.mul .x (.lit 1000000000000000000000000000000000000000000000000000000000000000))]),
  (s!!"E", [some (.mul .x (.lit 1000000000000000000)), some (.mul .x (.lit 1000000000000000000000000000000000000)), some (.mul .x (.lit 1000000000000000000000000000000000000000000000000000000))]),
  (s!!"P", [some (.mul .x (.lit 1000000000000000)), some (.mul .x (.lit 1000000000000000000000000000000)), some (.mul .x (.lit 1000000000000000000000000000000000000000000000))]),
  (s!!"T", [some (.mul .x (.lit 1000000000000)), some (.mul .x (.lit 1000000000000000000000000)), some (.mul .x (.lit 1000000000000000000000000000000000000))]),
  (s!!"G", [some (.mul .x (.lit 1000000000)), some (.mul .x (.lit 1000000000000000000)), some (.mul .x (.lit 1000000000000000000000000000))]),
  (s!!"M", [some (.mul .x (.lit 1000000)), some (.mul .x (.lit 1000000000000)), some (.mul .x (.lit 1000000000000000000))]),
  (s!!"K", [some (.mul .x (.lit 1000)), some (.mul .x (.lit 1000)), some (.mul .x (.lit 1000))]),
  (s!!"k", [some (.mul .x (.lit 1000)), some (.mul .x (.lit 1000000)), some (.mul .x (.lit 1000000000))]),
  (s!!"h", [some (.mul .x (.lit 100)), some (.mul .x (.lit 10000)), some (.mul .x (.lit 1000000))]),
  (s!!"da", [some (.mul .x (.lit 10)), some (.mul .x (.lit 100)), some (.mul .x (.lit 1000))]),
  (s!!"d", [some (.mul .x (.lit (1 / 10))), some (.mul .x (.lit (1 / 100))), some (.mul .x (.lit (1 / 1000)))]),
  (s!!"c", [some (.mul .x (.lit (1 / 100))), some (.mul .x (.lit (1 / 10000))), some (.mul .x (.lit (1 / 1000000)))]),
  (s!!"m", [some (.mul .x (.lit (1 / 1000))), some (.mul .x (.lit (1 / 1000000))), some (.mul .x (.lit (1 / 1000000000)))]),
  (s!!"µ", [some (.mul .x (.lit (1 / 1000000))), some (.mul .x (.lit (1 / 1000000000000))), some (.mul .x (.lit (1 / 1000000000000000000)))]),
  (s!!"u", [some (.mul .x (.lit (1 / 1000000))), some (.mul .x (.lit (1 / 1000000000000))), some (.mul .x (.lit (1 / 1000000000000000000)))]),
  (s!!"n", [some (.mul .x (.lit (1 / 1000000000))), some (.mul .x (.lit (1 / 1000000000000000000))), some (.mul .x (.lit (1 / 1000000000000000000000000000)))]),
  (s!!"p", [some (.mul .x (.lit (1 / 1000000000000))), some (.mul .x (.lit (1 / 1000000000000000000000000))), some (.mul .x (.lit (1 / 1000000000000000000000000000000000000)))]),
  (s!!"f", [some (.mul .x (.lit (1 / 1000000000000000))), some (.mul .x (.lit (1 / 1000000000000000000000000000000))), some (.mul .x (.lit (1 / 1000000000000000000000000000000000000000000000)))]),
  (s!!"a", [some (.mul .x (.lit (1 / 1000000000000000000))), some (.mul .x (.lit (1 / 1000000000000000000000000000000000000))), some (.mul .x (.lit (1 / 1000000000000000000000000000000000000000000000000000000)))]),
  (s!!"z", [some (.mul .x (.lit (1 / 1000000000000000000000))), some (.mul .x (.lit (1 / 1000000000000000000000000000000000000000000))), some (.mul .x (.lit (1 / 1000000000000000000000000000000000000000000000000000000000000000)))]),
  (s!!"y", [some (.mul .x (.lit (1 / 1000000000000000000000000))), some (.mul .x (.lit (1 / 1000000000000000000000000000000000000000000000000))), some (.mul .x (.lit (1 / 1000000000000000000000000000000000000000000000000000000000000000000000000)))]),
  (s!!"r", [some (.mul .x (.lit (1 / 1000000000000000000000000000))), some (.mul .x (.lit (1 / 1000000000000000000000000000000000000000000000000000000))), some (.mul .x (.lit (1 / 1000000000000000000000000000000000000000000000000000000000000000000000000000000000)))]),
  (s!!"q", [some (.mul .x (.lit (1 / 1000000000000000000000000000000))), some (.mul .x (.lit (1 / 1000000000000000000000000000000000000000000000000000000000000))), some (.mul .x (.lit (1 / 1000000000000000000000000000000000000000000000000000000000000000000000000000000000000000000)))])]

/-- `DATA` (dictionaries.py) -/
def prefixDATA : List (Str × List (Option CExp)) := [
  (s!!"Y", [some (.mul .x (.lit 1000000000000000000000000)), some (.mul .x (.lit 1208925819614629174706176))]),
  (s!!"Z", [some (.mul .x (.lit 1000000000000000000000)), some (.mul .x (.lit 1180591620717411303424))]),
  (s!!"E", [some (.mul .x (.lit 1000000000000000000)), some (.mul .x (.lit 1152921504606846976))]),
  (s!!"P", [some (.mul .x (.lit 1000000000000000)), some (.mul .x (.lit 1125899906842624))]),
  (s!!"T", [some (.mul .x (.lit 1000000000000)), some (.mul .x (.lit 1099511627776))]),
  (s!!"G", [some (.mul .x (.lit 1000000000)), some (.mul .x (.lit 1073741824))]),
  (s!!"M", [some (.mul .x (.lit 1000000)), some (.mul .x (.lit 1048576))]),
  (s!!"K", [some (.mul .x (.lit 1000)), some (.mul .x (.lit 1024))]),
  (s!!"k", [some (.mul .x (.lit 1000)), some (.mul .x (.lit 1024))])]

/-- `OGF` (dictionaries.py) -/
def prefixOGF : List (Str × List (Option CExp)) := [
  (s!!"M", [none, none, some (.mul .x (.lit 1000))]),
  (s!!"MM", [none, none, some (.mul .x (.lit 1000000))]),
  (s!!"B", [none, none, some (.mul .x (.lit 1000000000))]),
  (s!!"T", [none, none, some (.mul .x (.lit 1000000000000))])]

/-- `SI_order` (dictionaries.py) -/
def orderSI : List (List Str) := [
  [s!!"Length", s!!"Pressure", s!!"Weight", s!!"Mass", s!!"Time", s!!"Frequency", s!!"Power", s!!"Voltage", s!!"Current", s!!"Resistance", s!!"Impedance", s!!"Conductance", s!!"Capacitance", s!!"Charge", s!!"Inductance", s!!"Energy", s!!"Permeability"],
  [s!!"Area"],
  [s!!"Rate", s!!"Volume"]]

/-- `DATA_order` (dictionaries.py) -/
def orderDATA : List (List Str) := [
  [s!!"dataBIT"],
  [s!!"dataBYTE"]]

/-- `OGF_order` (dictionaries.py) -/
def orderOGF : List (List Str) := [
  [],
  [],
  [s!!"Volume", s!!"Rate"]]

/-- the conversions written one by one (database.py:358-556) -/
def explicitConversions : List (Str × Str × CExp) := [
  (s!!"fraction", s!!"percentage", (.mul .x (.lit 100))),
  (s!!"percentage", s!!"fraction", (.div .x (.lit 100))),
  (s!!"second", s!!"millisecond", (.mul .x (.lit 1000))),
  (s!!"minute", s!!"second", (.mul .x (.lit 60))),
  (s!!"hour", s!!"minute", (.mul .x (.lit 60))),
  (s!!"day", s!!"hour", (.mul .x (.lit 24))),
  (s!!"day", s!!"month", (.mul (.div .x (.lit (1461 / 4))) (.lit 12))),
  (s!!"week", s!!"day", (.mul .x (.lit 7))),
  (s!!"year", s!!"month", (.mul .x (.lit 12))),
  (s!!"year", s!!"day", (.div (.mul .x (.lit 36525)) (.lit 100))),
  (s!!"lustrum", s!!"year", (.mul .x (.lit 5))),
  (s!!"decade", s!!"year", (.mul .x (.lit 10))),
  (s!!"century", s!!"year", (.mul .x (.lit 100))),
  (s!!"Celsius", s!!"Kelvin", (.add .x (.lit (5463 / 20)))),
  (s!!"Kelvin", s!!"Celsius", (.sub .x (.lit (5463 / 20)))),
  (s!!"Celsius", s!!"Fahrenheit", (.add (.div (.mul .x (.lit 9)) (.lit 5)) (.lit 32))),
  (s!!"Fahrenheit", s!!"Celsius", (.div (.mul (.sub .x (.lit 32)) (.lit 5)) (.lit 9))),
  (s!!"Fahrenheit", s!!"Rankine", (.add .x (.lit (45967 / 100)))),
  (s!!"Rankine", s!!"Fahrenheit", (.sub .x (.lit (45967 / 100)))),
  (s!!"Rankine", s!!"Kelvin", (.div (.mul .x (.lit 5)) (.lit 9))),
  (s!!"Kelvin", s!!"Rankine", (.div (.mul .x (.lit 9)) (.lit 5))),
  (s!!"yard", s!!"meter", (.div (.mul .x (.lit 9144)) (.lit 10000))),
  (s!!"inch", s!!"thou", (.mul .x (.lit 1000))),
  (s!!"inch", s!!"tenth", (.mul .x (.lit 10))),
  (s!!"foot", s!!"inch", (.mul .x (.lit 12))),
  (s!!"yard", s!!"foot", (.mul .x (.lit 3))),
  (s!!"chain", s!!"yard", (.mul .x (.lit 22))),
  (s!!"furlong", s!!"chain", (.mul .x (.lit 10))),
  (s!!"mile", s!!"furlong", (.mul .x (.lit 8))),
  (s!!"league", s!!"mile", (.mul .x (.lit 3))),
  (s!!"nautical league", s!!"nautical mile", (.mul .x (.lit 3))),
  (s!!"nautical mile", s!!"meter", (.mul .x (.lit 1852))),
  (s!!"rod", s!!"yard", (.div (.mul .x (.lit 55)) (.lit 10))),
  (s!!"astronomical unit", s!!"meter", (.mul .x (.lit 149597870700))),
  (s!!"parsec", s!!"astronomical unit", (.mul .x (.lit 206265))),
  (s!!"light year", s!!"meter", (.mul (.mul (.mul (.mul .x (.lit 299792458)) (.lit (1461 / 4))) (.lit 24)) (.lit 60))),
  (s!!"mile per hour", s!!"kilometer per hour", (.div (.div (.mul (.mul (.mul (.mul .x (.lit 8)) (.lit 10)) (.lit 22)) (.lit 9144)) (.lit 10000)) (.lit 1000))),
  (s!!"square kilometer", s!!"square meter", (.mul .x (.lit 1000000))),
  (s!!"square mile", s!!"acre", (.mul .x (.lit 640))),
  (s!!"acre", s!!"square yard", (.mul .x (.lit 4840))),
  (s!!"square rod", s!!"square yard", (.div (.mul .x (.lit 3025)) (.lit 100))),
  (s!!"square yard", s!!"square foot", (.mul .x (.lit 9))),
  (s!!"square foot", s!!"square inch", (.mul .x (.lit 144))),
  (s!!"square foot", s!!"square meter", (.div (.mul .x (.lit 9290304)) (.lit 100000000))),
  (s!!"square inch", s!!"square thou", (.mul .x (.lit 1000000))),
  (s!!"square inch", s!!"square tenth", (.mul .x (.lit 100))),
  (s!!"square chain", s!!"square yard", (.mul .x (.lit 484))),
  (s!!"square furlong", s!!"square chain", (.mul .x (.lit 100))),
  (s!!"square mile", s!!"square furlong", (.mul .x (.lit 64))),
  (s!!"square league", s!!"square mile", (.mul .x (.lit 9))),
  (s!!"Darcy", s!!"µm2", (.mul .x (.lit (9869233 / 10000000)))),
  (s!!"litre", s!!"cubic centimeter", (.mul .x (.lit 1000))),
  (s!!"gill", s!!"fluid ounce", (.mul .x (.lit 4))),
  (s!!"pint", s!!"gill", (.mul .x (.lit 4))),
  (s!!"quart", s!!"pint", (.mul .x (.lit 2))),
  (s!!"gallonUS", s!!"fluid ounce", (.mul .x (.lit 128))),
  (s!!"gallonUS", s!!"quart", (.mul .x (.lit 4))),
  (s!!"gallonUS", s!!"cubic inch", (.mul .x (.lit 231))),
  (s!!"gallonUK", s!!"quartUK", (.mul .x (.lit 4))),
  (s!!"gallonUK", s!!"fluid ounce UK", (.mul .x (.lit 160))),
  (s!!"gallonUK", s!!"litre", (.mul .x (.lit (454609 / 100000)))),
  (s!!"gillUK", s!!"fluid ounce UK", (.mul .x (.lit 4))),
  (s!!"pintUK", s!!"gillUK", (.mul .x (.lit 4))),
  (s!!"quartUK", s!!"pintUK", (.mul .x (.lit 2))),
  (s!!"gallonUK", s!!"liter", (.mul .x (.lit (454609 / 100000)))),
  (s!!"cubic foot", s!!"cubic meter", (.div (.mul .x (.lit 28316846592)) (.lit 1000000000000))),
  (s!!"standard cubic foot", s!!"standard cubic meter", (.div (.mul .x (.lit 28316846592)) (.lit 1000000000000))),
  (s!!"standard barrel", s!!"USgal", (.mul .x (.lit 42))),
  (s!!"standard cubic meter", s!!"standard barrel", (.mul .x (.lit (3144907 / 500000)))),
  (s!!"standard barrel", s!!"standard cubic foot", (.mul .x (.lit (701823 / 125000)))),
  (s!!"reservoir cubic meter", s!!"reservoir barrel", (.mul .x (.lit (3144907 / 500000)))),
  (s!!"reservoir cubic meter", s!!"standard cubic meter", (.div .x .fvf)),
  (s!!"cubic inch", s!!"cubic thou", (.mul .x (.lit 1000000000))),
  (s!!"cubic inch", s!!"cubic tenth", (.mul .x (.lit 1000))),
  (s!!"cubic foot", s!!"cubic inch", (.mul .x (.lit 1728))),
  (s!!"cubic yard", s!!"cubic foot", (.mul .x (.lit 27))),
  (s!!"cubic chain", s!!"cubic yard", (.mul .x (.lit 10648))),
  (s!!"cubic furlong", s!!"cubic chain", (.mul .x (.lit 1000))),
  (s!!"cubic mile", s!!"cubic furlong", (.mul .x (.lit 512))),
  (s!!"cubic league", s!!"cubic mile", (.mul .x (.lit 27))),
  (s!!"psi gauge", s!!"absolute psi", (.add .x (.lit (146959 / 10000)))),
  (s!!"absolute psi", s!!"psi gauge", (.sub .x (.lit (146959 / 10000)))),
  (s!!"bar gauge", s!!"absolute bar", (.add .x (.lit (4053 / 4000)))),
  (s!!"absolute bar", s!!"bar gauge", (.sub .x (.lit (4053 / 4000)))),
  (s!!"absolute bar", s!!"absolute psi", (.mul .x (.lit (725188688661 / 50000000000)))),
  (s!!"bar gauge", s!!"psi gauge", (.mul .x (.lit (725188688661 / 50000000000)))),
  (s!!"bar", s!!"psi", (.mul .x (.lit (725188688661 / 50000000000)))),
  (s!!"psi", s!!"bar", (.div .x (.lit (725188688661 / 50000000000)))),
  (s!!"absolute bar", s!!"Pascal", (.mul .x (.lit 100000))),
  (s!!"atmosphere", s!!"Pascal", (.mul .x (.lit 101325))),
  (s!!"atmosphere", s!!"Torr", (.mul .x (.lit 760))),
  (s!!"absolute bar", s!!"bar", .x),
  (s!!"absolute psi", s!!"psi", .x),
  (s!!"bar gauge", s!!"bar", .x),
  (s!!"psi gauge", s!!"psi", .x),
  (s!!"absolute bar", s!!"kilogram/square centimeter", (.mul .x (.div (.lit 10) (.lit (196133 / 20000))))),
  (s!!"grain", s!!"milligrams", (.mul .x (.lit (647989 / 10000)))),
  (s!!"pennyweight", s!!"grain", (.mul .x (.lit 24))),
  (s!!"dram", s!!"pound", (.div .x (.lit 256))),
  (s!!"stone", s!!"pound", (.mul .x (.lit 14))),
  (s!!"quarter", s!!"stone", (.mul .x (.lit 2))),
  (s!!"weight ounce", s!!"dram", (.mul .x (.lit 16))),
  (s!!"pound", s!!"weight ounce", (.mul .x (.lit 16))),
  (s!!"long hundredweight", s!!"quarter", (.mul .x (.lit 4))),
  (s!!"short hundredweight", s!!"pound", (.mul .x (.lit 100))),
  (s!!"short ton", s!!"short hundredweight", (.mul .x (.lit 20))),
  (s!!"long ton", s!!"long hundredweight", (.mul .x (.lit 20))),
  (s!!"metric ton", s!!"kilogram", (.mul .x (.lit 1000))),
  (s!!"kilogram", s!!"gram", (.mul .x (.lit 1000))),
  (s!!"pound", s!!"kilogram", (.div (.mul .x (.lit 45359237)) (.lit 100000000))),
  (s!!"kilogram mass", s!!"kilogram force", (.mul .x (.lit (196133 / 20000)))),
  (s!!"kilogram force", s!!"kilogram mass", (.div .x (.lit (196133 / 20000)))),
  (s!!"Dyne", s!!"Newton", (.mul .x (.lit (1 / 100000)))),
  (s!!"Newton", s!!"Dyne", (.mul .x (.lit 100000))),
  (s!!"Joule", s!!"gram calorie", (.div .x (.lit (523 / 125)))),
  (s!!"Kilojoule", s!!"Joule", (.mul .x (.lit 1000))),
  (s!!"Kilojoule", s!!"kilowatt hour", (.div .x (.lit 3600))),
  (s!!"Kilojoule", s!!"British thermal unit", (.div .x (.lit (211 / 200)))),
  (s!!"Horsepower", s!!"Watt", (.mul .x (.lit (23303121 / 31250)))),
  (s!!"API", s!!"SgO", (.div (.lit (283 / 2)) (.add (.lit (263 / 2)) .x))),
  (s!!"SgO", s!!"API", (.sub (.div (.lit (283 / 2)) .x) (.lit (263 / 2)))),
  (s!!"API", s!!"g/cc", (.div (.lit (283 / 2)) (.add (.lit (263 / 2)) .x))),
  (s!!"g/cc", s!!"API", (.sub (.div (.lit (283 / 2)) .x) (.lit (263 / 2)))),
  (s!!"SgO", s!!"g/cc", .x),
  (s!!"SgW", s!!"g/cc", .x),
  (s!!"SgG", s!!"kg/m3", (.mul .x (.lit (49 / 40)))),
  (s!!"psia/ft", s!!"lb/ft3", (.mul .x (.lit 144))),
  (s!!"psi/ft", s!!"lb/ft3", (.mul .x (.lit 144))),
  (s!!"psig/ft", s!!"lb/ft3", (.mul .x (.lit 144))),
  (s!!"bara/m", s!!"kg/m3", (.div (.mul .x (.lit 100000)) (.lit (196133 / 20000)))),
  (s!!"bar/m", s!!"kg/m3", (.div (.mul .x (.lit 100000)) (.lit (196133 / 20000)))),
  (s!!"barg/m", s!!"kg/m3", (.div (.mul .x (.lit 100000)) (.lit (196133 / 20000)))),
  (s!!"g/cm3", s!!"lb/ft3", (.mul .x (.lit (31213980288072303 / 500000000000000)))),
  (s!!"lb/ft3", s!!"lb/stb", (.mul .x (.lit (701823 / 125000)))),
  (s!!"Pa*s", s!!"Poise", (.mul .x (.lit 10))),
  (s!!"byte", s!!"bit", (.mul .x (.lit 8)))]

/-- the prefixes that ship with the library -/
def shippedPrefixes : Prefixes := ⟨prefixSI, orderSI, prefixDATA, orderDATA, prefixOGF, orderOGF⟩

/-- `_load_network()` on the shipped data (database.py:90-606) -/
def loadShipped : Res (Net × RawDict) := loadNetwork shippedPrefixes explicitConversions rawDictionary

end Unyts

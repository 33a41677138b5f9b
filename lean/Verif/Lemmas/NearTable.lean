import Verif.Lemmas.ShippedLabel

/- Written by tools/neartable.py: checked, not trusted. -/
namespace Unyts

/-- a search tree from codes of names to lists of names -/
inductive Near
  | leaf
  | node (l : Near) (k : Nat) (ns : List Str) (r : Near)

/-- the names a name is declared to convert to or from -/
def nearTree : Near :=
  (.node (.node (.node (.node (.node (.node (.node (.node .leaf 2097201 [] .leaf) 2097217 [s!!"Ampere", s!!"QA", s!!"RA", s!!"YA", s!!"ZA", s!!"EA", s!!"PA", s!!"TA", s!!"GA", s!!"MA", s!!"KA", s!!"kA", s!!"hA", s!!"daA", s!!"dA", s!!"cA", s!!"mA", s!!"µA", s!!"uA", s!!"nA", s!!"pA", s!!"fA", s!!"aA", s!!"zA", s!!"yA", s!!"rA", s!!"qA"] .leaf) 2097222 [s!!"Fahrenheit", s!!"Farad", s!!"QF", s!!"RF", s!!"YF", s!!"ZF", s!!"EF", s!!"PF", s!!"TF", s!!"GF", s!!"MF", s!!"KF", s!!"kF", s!!"hF", s!!"daF", s!!"dF", s!!"cF", s!!"mF", s!!"µF", s!!"uF", s!!"nF", s!!"pF", s!!"fF", s!!"aF", s!!"zF", s!!"yF", s!!"rF", s!!"qF"] (.node (.node .leaf 2097226 [s!!"Joule", s!!"j"] .leaf) 2097230 [s!!"Newton"] .leaf)) 2097233 [s!!"Coulomb", s!!"QQ", s!!"RQ", s!!"YQ", s!!"ZQ", s!!"EQ", s!!"PQ", s!!"TQ", s!!"GQ", s!!"MQ", s!!"KQ", s!!"kQ", s!!"hQ", s!!"daQ", s!!"dQ", s!!"cQ", s!!"mQ", s!!"µQ", s!!"uQ", s!!"nQ", s!!"pQ", s!!"fQ", s!!"aQ", s!!"zQ", s!!"yQ", s!!"rQ", s!!"qQ"] (.node (.node (.node .leaf 2097238 [s!!"Volt", s!!"QV", s!!"RV", s!!"YV", s!!"ZV", s!!"EV", s!!"PV", s!!"TV", s!!"GV", s!!"MV", s!!"KV", s!!"kV", s!!"hV", s!!"daV", s!!"dV", s!!"cV", s!!"mV", s!!"µV", s!!"uV", s!!"nV", s!!"pV", s!!"fV", s!!"aV", s!!"zV", s!!"yV", s!!"rV", s!!"qV"] .leaf) 2097239 [s!!"Watt", s!!"QW", s!!"RW", s!!"YW", s!!"ZW", s!!"EW", s!!"PW", s!!"TW", s!!"GW", s!!"MW", s!!"KW", s!!"kW", s!!"hW", s!!"daW", s!!"dW", s!!"cW", s!!"mW", s!!"µW", s!!"uW", s!!"nW", s!!"pW", s!!"fW", s!!"aW", s!!"zW", s!!"yW", s!!"rW", s!!"qW"] .leaf) 2097252 [s!!"day"] (.node (.node .leaf 2097255 [s!!"gram", s!!"Qg", s!!"Rg", s!!"Yg", s!!"Zg", s!!"Eg", s!!"Pg", s!!"Tg", s!!"Gg", s!!"Mg", s!!"Kg", s!!"kg", s!!"hg", s!!"dag", s!!"dg", s!!"cg", s!!"mg", s!!"µg", s!!"ug", s!!"ng", s!!"pg", s!!"fg", s!!"ag", s!!"zg", s!!"yg", s!!"rg", s!!"qg"] .leaf) 2097256 [s!!"hour"] .leaf))) 2097261 [s!!"meter", s!!"M", s!!"Qm", s!!"Rm", s!!"Ym", s!!"Zm", s!!"Em", s!!"Pm", s!!"Tm", s!!"Gm", s!!"Mm", s!!"Km", s!!"km", s!!"hm", s!!"dam", s!!"dm", s!!"cm", s!!"mm", s!!"µm", s!!"um", s!!"nm", s!!"pm", s!!"fm", s!!"am", s!!"zm", s!!"ym", s!!"rm", s!!"qm"] (.node (.node (.node (.node .leaf 2097267 [s!!"second", s!!"S", s!!"Qs", s!!"Rs", s!!"Ys", s!!"Zs", s!!"Es", s!!"Ps", s!!"Ts", s!!"Gs", s!!"Ms", s!!"Ks", s!!"ks", s!!"hs", s!!"das", s!!"ds", s!!"cs", s!!"ms", s!!"µs", s!!"us", s!!"ns", s!!"ps", s!!"fs", s!!"as", s!!"zs", s!!"ys", s!!"rs", s!!"qs"] .leaf) 2098089 [s!!"Ohm", s!!"QΩ", s!!"RΩ", s!!"YΩ", s!!"ZΩ", s!!"EΩ", s!!"PΩ", s!!"TΩ", s!!"GΩ", s!!"MΩ", s!!"KΩ", s!!"kΩ", s!!"hΩ", s!!"daΩ", s!!"dΩ", s!!"cΩ", s!!"mΩ", s!!"µΩ", s!!"uΩ", s!!"nΩ", s!!"pΩ", s!!"fΩ", s!!"aΩ", s!!"zΩ", s!!"yΩ", s!!"rΩ", s!!"qΩ"] .leaf) 4398195408983 [s!!"W"] (.node (.node .leaf 4398197506170 [s!!"Hertz", s!!"HZ", s!!"QHz", s!!"RHz", s!!"YHz", s!!"ZHz", s!!"EHz", s!!"PHz", s!!"THz", s!!"GHz", s!!"MHz", s!!"KHz", s!!"kHz", s!!"hHz", s!!"daHz", s!!"dHz", s!!"cHz", s!!"mHz", s!!"µHz", s!!"uHz", s!!"nHz", s!!"pHz", s!!"fHz", s!!"aHz", s!!"zHz", s!!"yHz", s!!"rHz", s!!"qHz"] .leaf) 4398207991894 [s!!"V"] .leaf)) 4398207991895 [s!!"W"] (.node (.node (.node .leaf 4398207992745 [s!!"Ω"] .leaf) 4398214283361 [s!!"Pascal", s!!"QPa", s!!"RPa", s!!"YPa", s!!"ZPa", s!!"EPa", s!!"PPa", s!!"TPa", s!!"GPa", s!!"MPa", s!!"KPa", s!!"kPa", s!!"hPa", s!!"daPa", s!!"dPa", s!!"cPa", s!!"mPa", s!!"µPa", s!!"uPa", s!!"nPa", s!!"pPa", s!!"fPa", s!!"aPa", s!!"zPa", s!!"yPa", s!!"rPa", s!!"qPa"] .leaf) 4398226866241 [s!!"Watt"] (.node (.node .leaf 4398228963432 [s!!"Watt hour", s!!"WH", s!!"wh", s!!"QWh", s!!"RWh", s!!"YWh", s!!"ZWh", s!!"EWh", s!!"PWh", s!!"TWh", s!!"GWh", s!!"MWh", s!!"KWh", s!!"kWh", s!!"hWh", s!!"daWh", s!!"dWh", s!!"cWh", s!!"mWh", s!!"µWh", s!!"uWh", s!!"nWh", s!!"pWh", s!!"fWh", s!!"aWh", s!!"zWh", s!!"yWh", s!!"rWh", s!!"qWh"] .leaf) 4398228963443 [s!!"Watt second", s!!"WS", s!!"ws", s!!"QWs", s!!"RWs", s!!"YWs", s!!"ZWs", s!!"EWs", s!!"PWs", s!!"TWs", s!!"GWs", s!!"MWs", s!!"KWs", s!!"kWs", s!!"hWs", s!!"daWs", s!!"dWs", s!!"cWs", s!!"mWs", s!!"µWs", s!!"uWs", s!!"nWs", s!!"pWs", s!!"fWs", s!!"aWs", s!!"zWs", s!!"yWs", s!!"rWs", s!!"qWs"] .leaf)))) 4398254129254 [s!!"cubic foot", s!!"standard cubic foot", s!!"Mcf", s!!"MMcf", s!!"Bcf", s!!"Tcf", s!!"CF"] (.node (.node (.node (.node (.node .leaf 4398254129261 [s!!"m"] .leaf) 4398260420724 [s!!"foot", s!!"FT"] .leaf) 4398264615026 [s!!"hour", s!!"HR"] (.node (.node .leaf 4398270906433 [s!!"A"] .leaf) 4398270906442 [s!!"Kilojoule", s!!"KJ", s!!"kj"] .leaf)) 4398270906449 [s!!"Q"] (.node (.node (.node .leaf 4398270906454 [s!!"V"] .leaf) 4398270906455 [s!!"W"] .leaf) 4398270906471 [s!!"kilogram", s!!"g"] (.node (.node .leaf 4398270906477 [s!!"m"] .leaf) 4398270907305 [s!!"Ω"] .leaf))) 4398275100722 [s!!"square meter", s!!"M2", s!!"Qm2", s!!"Rm2", s!!"Ym2", s!!"Zm2", s!!"Em2", s!!"Pm2", s!!"Tm2", s!!"Gm2", s!!"Mm2", s!!"Km2", s!!"km2", s!!"hm2", s!!"dam2", s!!"dm2", s!!"cm2", s!!"mm2", s!!"µm2", s!!"um2", s!!"nm2", s!!"pm2", s!!"fm2", s!!"am2", s!!"zm2", s!!"ym2", s!!"rm2", s!!"qm2"] (.node (.node (.node (.node .leaf 4398275100723 [s!!"Qm3", s!!"Rm3", s!!"Ym3", s!!"Zm3", s!!"Em3", s!!"Pm3", s!!"Tm3", s!!"Gm3", s!!"Mm3", s!!"Km3", s!!"km3", s!!"hm3", s!!"dam3", s!!"dm3", s!!"cm3", s!!"mm3", s!!"µm3", s!!"um3", s!!"nm3", s!!"pm3", s!!"fm3", s!!"am3", s!!"zm3", s!!"ym3", s!!"rm3", s!!"qm3", s!!"M3", s!!"cubic meter", s!!"standard cubic meter", s!!"m³", s!!"m2*m", s!!"m*m2", s!!"m²*m", s!!"m*m²"] .leaf) 4398275100737 [s!!"A"] .leaf) 4398275100753 [s!!"Q"] (.node (.node .leaf 4398275100758 [s!!"V"] .leaf) 4398275100759 [s!!"W"] .leaf)) 4398275100777 [s!!"mile"] (.node (.node (.node .leaf 4398275100851 [s!!"Qm³", s!!"Rm³", s!!"Ym³", s!!"Zm³", s!!"Em³", s!!"Pm³", s!!"Tm³", s!!"Gm³", s!!"Mm³", s!!"Km³", s!!"km³", s!!"hm³", s!!"dam³", s!!"dm³", s!!"cm³", s!!"mm³", s!!"µm³", s!!"um³", s!!"nm³", s!!"pm³", s!!"fm³", s!!"am³", s!!"zm³", s!!"ym³", s!!"rm³", s!!"qm³", s!!"M³", s!!"cubic meter", s!!"m3"] .leaf) 4398275101609 [s!!"Ω"] .leaf) 4398287683634 [s!!"s*s", s!!"S2"] (.node (.node .leaf 4398426095681 [s!!"A"] .leaf) 4398426095702 [s!!"V"] .leaf))))) 9223587541232386163 [s!!"Hertz", s!!"1/S"] (.node (.node (.node (.node (.node (.node .leaf 9223671104153845849 [s!!"day"] .leaf) 9223684298308059258 [s!!"Hz"] .leaf) 9223697492395163763 [s!!"Watt", s!!"J/S"] (.node (.node .leaf 9223710686587125882 [s!!"Hz"] .leaf) 9223715084570722413 [s!!"Joule", s!!"N*M", s!!"n*m"] .leaf)) 9223715084570722419 [] (.node (.node (.node .leaf 9223719482747256941 [s!!"ohm", s!!"Ω", s!!"Volt/Ampere", s!!"V/A", s!!"ohm.m", s!!"OHM"] .leaf) 9223732676836458573 [s!!"rpm", s!!"1/min"] .leaf) 9223737074891358274 [s!!"stb"] (.node (.node .leaf 9223750268942811201 [s!!"Watt"] .leaf) 9223750268942811206 [s!!"Coulomb"] .leaf))) 9223750268953296961 [s!!"Ohm"] (.node (.node (.node (.node .leaf 9223754666989322344 [s!!"Watt hour", s!!"W*H", s!!"w*h"] .leaf) 9223754666989322355 [s!!"Watt second", s!!"W*S", s!!"w*s"] .leaf) 9223754666999808065 [s!!"Volt"] (.node (.node .leaf 9223754666999808086 [s!!"Ampere"] .leaf) 9223803045616287858 [s!!"bar gauge", s!!"BAR", s!!"Qbar", s!!"Rbar", s!!"Ybar", s!!"Zbar", s!!"Ebar", s!!"Pbar", s!!"Tbar", s!!"Gbar", s!!"Mbar", s!!"Kbar", s!!"kbar", s!!"hbar", s!!"dabar", s!!"dbar", s!!"cbar", s!!"mbar", s!!"µbar", s!!"ubar", s!!"nbar", s!!"pbar", s!!"fbar", s!!"abar", s!!"zbar", s!!"ybar", s!!"rbar", s!!"qbar", s!!"psi", s!!"absolute bar"] .leaf)) 9223803045618385004 [s!!"barrel", s!!"Mbbl", s!!"MMbbl", s!!"Bbbl", s!!"Tbbl", s!!"BBL"] (.node (.node (.node .leaf 9223807443687964722 [s!!"square centimeter", s!!"CM2", s!!"m2"] .leaf) 9223811841709310073 [s!!"d", s!!"día", s!!"días", s!!"DíA", s!!"days", s!!"DAYS", s!!"DAY", s!!"hour", s!!"month", s!!"week", s!!"year"] .leaf) 9223811841759641710 [s!!"Dyne", s!!"DYN"] (.node (.node .leaf 9223820637842178098 [s!!"square foot", s!!"FT2"] .leaf) 9223820637842178099 [s!!"cubic foot", s!!"Mft3", s!!"MMft3", s!!"Bft3", s!!"Tft3", s!!"FT3", s!!"ft³", s!!"ft2*ft", s!!"ft*ft2", s!!"ft²ft", s!!"ft*ft²"] .leaf)))) 9223833831969128498 [s!!"square inch", s!!"IN2"] (.node (.node (.node (.node (.node .leaf 9223842627982459002 [s!!"Hz"] .leaf) 9223842627999236193 [s!!"KPa", s!!"kilopascal", s!!"kpa", s!!"KPA", s!!"Pa"] .leaf) 9223842628013916264 [s!!"kilowatt hour", s!!"KWH", s!!"kwh", s!!"Wh"] (.node (.node .leaf 9223842628066345064 [s!!"kilometer per hour", s!!"KPH"] .leaf) 9223851424012566637 [s!!"square meter", s!!"M*M"] .leaf)) 9223851424144687214 [s!!"minute", s!!"mins", s!!"MINS", s!!"MIN"] (.node (.node (.node .leaf 9223851424159367272 [s!!"mile per hour", s!!"MPH"] .leaf) 9223860220235612269 [s!!"Ohm", s!!"OHM"] .leaf) 9223864618305192041 [s!!"psi gauge", s!!"PSI", s!!"bar", s!!"absolute psi"] (.node (.node .leaf 9223873414391922797 [s!!"RPM"] .leaf) 9223877812291633267 [s!!"s2", s!!"S*S"] .leaf))) 9223877812411170918 [s!!"standard cubic foot", s!!"Mscf", s!!"MMscf", s!!"Bscf", s!!"Tscf", s!!"SCF"] (.node (.node (.node (.node .leaf 9223877812432142387 [s!!"Qsm3", s!!"Rsm3", s!!"Ysm3", s!!"Zsm3", s!!"Esm3", s!!"Psm3", s!!"Tsm3", s!!"Gsm3", s!!"Msm3", s!!"Ksm3", s!!"ksm3", s!!"hsm3", s!!"dasm3", s!!"dsm3", s!!"csm3", s!!"msm3", s!!"µsm3", s!!"usm3", s!!"nsm3", s!!"psm3", s!!"fsm3", s!!"asm3", s!!"zsm3", s!!"ysm3", s!!"rsm3", s!!"qsm3", s!!"standard cubic meter", s!!"SM3"] .leaf) 9223877812432142515 [s!!"Qsm³", s!!"Rsm³", s!!"Ysm³", s!!"Zsm³", s!!"Esm³", s!!"Psm³", s!!"Tsm³", s!!"Gsm³", s!!"Msm³", s!!"Ksm³", s!!"ksm³", s!!"hsm³", s!!"dasm³", s!!"dsm³", s!!"csm³", s!!"msm³", s!!"µsm³", s!!"usm³", s!!"nsm³", s!!"psm³", s!!"fsm³", s!!"asm³", s!!"zsm³", s!!"ysm³", s!!"rsm³", s!!"qsm³", s!!"standard cubic meter", s!!"SM³"] .leaf) 9223877812446822498 [s!!"barrel", s!!"standard barrel", s!!"Mstb", s!!"MMstb", s!!"Bstb", s!!"Tstb", s!!"STB"] (.node (.node .leaf 19343440303664736778584165 [s!!"dyne", s!!"dyn", s!!"g*cm/s2", s!!"DYNE", s!!"Newton"] .leaf) 19343550984023625777021043 [s!!"N*s/m2", s!!"kg/m/s", s!!"PA*S", s!!"Poise"] .leaf)) 19343606324317419695243380 [s!!"V", s!!"Voltio", s!!"Ampere*Ohm", s!!"Watt/Ampere", s!!"A*ohm", s!!"ohm*A", s!!"Ohm*Ampere", s!!"W/A", s!!"VOLT"] (.node (.node (.node .leaf 19343615547627883915640948 [s!!"W", s!!"J/s", s!!"VA", s!!"Volt*Ampere", s!!"Watt hour/hour", s!!"V*A", s!!"Wh/h", s!!"WATT", s!!"Horsepower"] .leaf) 19343615547658670096515159 [s!!"hour", s!!"WH/W"] .leaf) 19343615547658670096515176 [s!!"Watt", s!!"WH/H"] (.node (.node .leaf 19343717004720289313980513 [s!!"absolute bar", s!!"BARA", s!!"Qbara", s!!"Rbara", s!!"Ybara", s!!"Zbara", s!!"Ebara", s!!"Pbara", s!!"Tbara", s!!"Gbara", s!!"Mbara", s!!"Kbara", s!!"kbara", s!!"hbara", s!!"dabara", s!!"dbara", s!!"cbara", s!!"mbara", s!!"µbara", s!!"ubara", s!!"nbara", s!!"pbara", s!!"fbara", s!!"abara", s!!"zbara", s!!"ybara", s!!"rbara", s!!"qbara"] .leaf) 19343717004720289313980519 [s!!"bar gauge", s!!"BARG", s!!"Qbarg", s!!"Rbarg", s!!"Ybarg", s!!"Zbarg", s!!"Ebarg", s!!"Pbarg", s!!"Tbarg", s!!"Gbarg", s!!"Mbarg", s!!"Kbarg", s!!"kbarg", s!!"hbarg", s!!"dabarg", s!!"dbarg", s!!"cbarg", s!!"mbarg", s!!"µbarg", s!!"ubarg", s!!"nbarg", s!!"pbarg", s!!"fbarg", s!!"abarg", s!!"zbarg", s!!"ybarg", s!!"rbarg", s!!"qbarg"] .leaf)))))) 19343717004724687347908708 [s!!"bbl/day", s!!"BBLD"] (.node (.node (.node (.node (.node (.node (.node .leaf 19343735451569916131410021 [s!!"Dyne", s!!"DYNE"] .leaf) 19343763121338580998291565 [] .leaf) 19343772345014083100082290 [s!!"h", s!!"hh", s!!"hr", s!!"Wh/W", s!!"Watt hour/Watt", s!!"hours", s!!"HOURS", s!!"HOUR", s!!"minute", s!!"day"] (.node (.node .leaf 19343800015024640390856808 [s!!"kilowatt hour", s!!"KW*H", s!!"kw*h"] .leaf) 19343800015095009135034477 [] .leaf)) 19343818461610384436494436 [s!!"m3/day", s!!"M3/D"] (.node (.node (.node .leaf 19343818461610384436494445 [s!!"square meter", s!!"M3/M"] .leaf) 19343846132007970099167329 [s!!"absolute psi", s!!"PSIA"] .leaf) 19343846132007970099167335 [s!!"psi gauge", s!!"PSIG"] (.node (.node .leaf 19343873802053711913025636 [s!!"scf/day", s!!"SCFD"] .leaf) 19343873802097692271181924 [s!!"sm3/day", s!!"SM3D"] .leaf))) 19343873802128478695325796 [s!!"stb/day", s!!"STBD"] (.node (.node (.node (.node .leaf 19343873802128478718394419 [s!!"Qstm3", s!!"Rstm3", s!!"Ystm3", s!!"Zstm3", s!!"Estm3", s!!"Pstm3", s!!"Tstm3", s!!"Gstm3", s!!"Mstm3", s!!"Kstm3", s!!"kstm3", s!!"hstm3", s!!"dastm3", s!!"dstm3", s!!"cstm3", s!!"mstm3", s!!"µstm3", s!!"ustm3", s!!"nstm3", s!!"pstm3", s!!"fstm3", s!!"astm3", s!!"zstm3", s!!"ystm3", s!!"rstm3", s!!"qstm3", s!!"standard cubic meter", s!!"STM3"] .leaf) 40565767005579417633908408189042 [s!!"1/bara", s!!"1/barg", s!!"1/BAR"] .leaf) 40565767005579417682286936588398 [s!!"RPM", s!!"1/MIN"] (.node (.node .leaf 40565767005579417695481097093225 [s!!"1/psia", s!!"µsip", s!!"usip", s!!"1/psig", s!!"1/PSI"] .leaf) 40566076490543122175967478415469 [s!!"Volt", s!!"A*OHM"] .leaf)) 40566173205115976821522592432228 [s!!"F", s!!"Faradio", s!!"Farads", s!!"farads", s!!"Coulomb/Volt", s!!"Q/V", s!!"FARAD"] (.node (.node (.node .leaf 40566211890779097977803641979002 [s!!"Hz", s!!"hertz", s!!"1/s", s!!"s-1", s!!"HERTZ"] .leaf) 40566250576497559379499903090789 [s!!"J", s!!"Watt second", s!!"N*m", s!!"kg*m2/s2", s!!"Joules", s!!"JOULE", s!!"joule", s!!"gram calorie", s!!"Kilojoule"] .leaf) 40566366633376242331124131430501 [s!!"dyne*s/cm2", s!!"g/cm/s", s!!"POISE", s!!"Pa*s"] (.node (.node .leaf 40566482689664629551554453569645 [s!!"Ampere", s!!"V/OHM"] .leaf) 40566792175310863263700944420980 [s!!"square foot", s!!"FT*FT"] .leaf)))) 40566888889256528597555823509554 [] (.node (.node (.node (.node (.node .leaf 40566888889311868851767174234226 [s!!"kilometer per hour", s!!"KM/HR"] .leaf) 40566927574901203031753345728626 [s!!"mile per hour", s!!"MI/HR"] .leaf) 40566966260518207600528835215425 [s!!"Volt", s!!"OHM*A"] (.node (.node .leaf 40567043631881343401238292594788 [s!!"sm3/day", s!!"STM3D"] .leaf) 85072579407284886849786286050465808481 [s!!"1/bar", s!!"1/BARA"] .leaf)) 85072579407284886849786286050465808487 [s!!"1/bar", s!!"1/BARG"] (.node (.node (.node .leaf 85072579407284886978913573731250995297 [s!!"1/psi", s!!"1/PSIA"] .leaf) 85072579407284886978913573731250995303 [s!!"1/psi", s!!"1/PSIG"] .leaf) 85073228445591458245424790611968393317 [s!!"A", s!!"Watt/Volt", s!!"Volt/Ohm", s!!"W/V", s!!"V/ohm", s!!"AMPERE"] (.node (.node .leaf 85073755786945184737898809381259051058 [s!!"Pa*s", s!!"N*S/M2"] .leaf) 85073755788086410748508810934814244974 [s!!"N", s!!"newton", s!!"kg*m/s2", s!!"NEWTON", s!!"Dyne"] .leaf))) 85074607649309106267697593763846160505 [s!!"scf/day", s!!"ft3/day", s!!"CF/DAY"] (.node (.node (.node (.node .leaf 85074648214495827601273731647241453683 [] .leaf) 85074729344037527598207069433452560500 [s!!"square foot", s!!"FT3/FT"] .leaf) 85074769907522081239415497166877098099 [s!!"Poise", s!!"G/CM/S"] (.node (.node .leaf 85074932167882107507538250568975777907 [s!!"Pa*s", s!!"KG/M/S"] .leaf) 85075013296514695832300535302311641209 [s!!"m3/d", s!!"m³/day", s!!"M3/DAY"] .leaf)) 85075013297559208321520087997939187813 [s!!"min", s!!"minutes", s!!"MINUTES", s!!"MINUTE", s!!"second", s!!"hour"] (.node (.node (.node .leaf 85075013298990575910871295852109889657 [s!!"m3/day", s!!"M³/DAY"] .leaf) 85075256686397080787652720304079241316 [s!!"s", s!!"ss", s!!"sec", s!!"seconds", s!!"SECONDS", s!!"SECOND", s!!"millisecond", s!!"minute"] .leaf) 178411661322393608046669558983231642707951714 [s!!"Q", s!!"Volt*Farad", s!!"V*F", s!!"COULOMB"] (.node (.node .leaf 178413022450766040695442190847347447417536601 [s!!"stb/day"] .leaf) 178414298510209902495980576055167382542352505 [s!!"bbld", s!!"BBL/DAY"] .leaf))))) 178414468651352798397461556434713202460196978 [] (.node (.node (.node (.node (.node (.node .leaf 178414468651352798397461556434774775149101161 [] .leaf) 178414638793306989077635152076495108024828025 [s!!"cf/day", s!!"FT3/DAY"] .leaf) 178414723860896923619366172010271167519653938 [s!!"Dyne", s!!"G*CM/S2"] (.node (.node .leaf 178415064145738297426934791688058356612726834 [s!!"Newton", s!!"KG*M/S2"] .leaf) 178415744710309881187600720055092461288030329 [s!!"scfd", s!!"cf/day", s!!"SCF/DAY"] .leaf)) 178415744710715528393190284658033999753511033 [s!!"sm3d", s!!"stm3d", s!!"stm3/day", s!!"sm³/day", s!!"SM3/DAY"] (.node (.node (.node .leaf 178415744710715530869070363228794549551759481 [s!!"sm3/day", s!!"SM³/DAY"] .leaf) 178415744710999483036753624394170400650559609 [s!!"stbd", s!!"STB/DAY"] .leaf) 374159762078850576191923454266164195618399012782189 [s!!"Ampere", s!!"VOLT/OHM"] (.node (.node .leaf 374163508603363361925491152258222628504136843264050 [s!!"Joule", s!!"KG*M2/S2"] .leaf) 374164935851566491800836817019771513143060013777010 [s!!"sm3/day/bar", s!!"SM3D/BAR"] .leaf))) 374164935851566491800836817019771513182642396725345 [s!!"sm3/day/kPa", s!!"SM3D/KPA"] (.node (.node (.node (.node .leaf 374164935852161987849494962074089438618679917936745 [s!!"stb/day/psi", s!!"STBD/PSI"] .leaf) 374164935852161988295707025556583610023469880705145 [s!!"sm3/day", s!!"STM3/DAY"] .leaf) 784665777773504483969897321650957321391606186818230288485 [s!!"kJ", s!!"KILOJOULE", s!!"kilojoule", s!!"Joule", s!!"kilowatt hour", s!!"British thermal unit"] (.node (.node .leaf 784670267505107117491521020154246735052059177453573111922 [s!!"Wh", s!!"Watt*hour", s!!"W*h", s!!"Watt-hour", s!!"Watt_hour", s!!"WATT HOUR", s!!"watt hour"] .leaf) 784670267505107117491521020154440163183197518121526100082 [s!!"Watt hour", s!!"WATT*HOUR", s!!"watt*hour"] .leaf)) 784670267505107117491521020154536877082745991792097755252 [s!!"Ampere", s!!"WATT/VOLT"] (.node (.node (.node .leaf 784680743550984371413106382552255049878570931244798836833 [s!!"sm3/day/kPa", s!!"SM3/D/KPA"] .leaf) 784680743550984371413108532486647868330994594012484075617 [s!!"sm3/day/bar", s!!"SM3D/BARA"] .leaf) 784680743552233217142541908769207995796490898802716180585 [s!!"stb/day/psi", s!!"STB/D/PSI"] (.node (.node .leaf 784680743552233217142544058703600814378041827260880650337 [s!!"stb/day/psi", s!!"STBD/PSIA"] .leaf) 1645555558813587820605733153393797168699944973889688550225477741 [s!!"Volt", s!!"AMPERE*OHM"] .leaf)))) 1645566543739754024666063406358352350304688274272801514521100389 [s!!"Volt", s!!"OHM*AMPERE"] (.node (.node (.node (.node (.node .leaf 1645572036206391498767429074338128720866180442624535890503925860 [s!!"Coulomb", s!!"VOLT*FARAD"] .leaf) 1645583021138169870007143545557834785069921939938343997216391218 [s!!"Poise", s!!"DYNE*S/CM2"] .leaf) 3451014686874306344423111418106355323019128183688152906884936661729381 [s!!"Watt", s!!"VOLT*AMPERE"] (.node (.node .leaf 3451014686874306344423111418106780675977779356767482125144226371993701 [s!!"Ohm", s!!"VOLT/AMPERE"] .leaf) 3451016332367878740585382234991663721471104747062670834103450488275044 [s!!"Joule", s!!"Ws", s!!"Watt*second", s!!"W*s", s!!"Watt-second", s!!"Watt_second", s!!"WATT SECOND", s!!"watt second"] .leaf)) 3451016332367878740585382234992514427388407093221329270622029908803684 [s!!"Watt second", s!!"WATT*SECOND", s!!"watt*second"] (.node (.node (.node .leaf 3451016332367878740585382234992939778318817460678116260951627508220005 [s!!"Volt", s!!"WATT/AMPERE"] .leaf) 3451062406504899362638243040082739663114255614178807606134461614260338 [s!!"sm3/day/bar", s!!"SM3/DAY-BAR"] .leaf) 3451062406504899362638243040082739663114255614178826052878535323811954 [s!!"SM3/DAY/", s!!"sm3/d/b", s!!"sm3d/bar", s!!"sm3d/bara", s!!"sm3/day/bara", s!!"sm3/day-bar", s!!"SM3/DAY-BAR", s!!"sm3/day-bara", s!!"SM3/DAY-BARA", s!!"sm3/day/barsa", s!!"SM3/DAY/BAR"] (.node (.node .leaf 3451062406504899362638243040082739663114255614178826052918117706760289 [s!!"sm3d/kPa", s!!"sm3/day-kPa", s!!"SM3/DAY-KPA", s!!"sm3/d/kPa", s!!"SM3/DAY/KPA"] .leaf) 3451062406508037938199476965106863664491055835189979518856852043464820 [s!!"sq ft", s!!"sqft", s!!"ft2", s!!"ft²", s!!"ft*ft", s!!"ft3/ft", s!!"ft³/ft", s!!"SQUARE FOOT", s!!"square yard", s!!"square inch", s!!"square meter"] .leaf))) 3451062406510391844241494086116519890686298229535214459710120690450537 [s!!"stb/day/psi", s!!"STB/DAY-PSI"] (.node (.node (.node (.node .leaf 3451062406510391844241494086116519890686298229535232906454194400002153 [s!!"STB/DAY/", s!!"stbd/psi", s!!"stbd/psia", s!!"stb/day/psia", s!!"stb/day-psi", s!!"STB/DAY-PSI", s!!"stb/day-psia", s!!"STB/DAY-PSIA", s!!"stb/d/psi", s!!"STB/DAY/PSI"] .leaf) 7237402427926562708155516667995597649979387389786353414446326111402886955105 [s!!"sm3/day/bar", s!!"SM3/DAY/BARA"] .leaf) 7237402427933144778170909516327789347714746726880471327529248116745554624626 [s!!"square metre", s!!"centiare", s!!"sq m", s!!"sqm", s!!"m2", s!!"m²", s!!"sqmeter", s!!"m*m", s!!"m3/m", s!!"SQUARE METER", s!!"square kilometer", s!!"square foot"] (.node (.node .leaf 7237402427938081276934737805687431921792551704666272760236226694353315168353 [s!!"stb/day/psi", s!!"STB/DAY/PSIA"] .leaf) 15177875080472624779536275162382665987414422715896343086035785356194460644059119730 [s!!"kWh", s!!"kW*h", s!!"kilovatio hora", s!!"kilowatt-hour", s!!"kilowatt_hour", s!!"KILOWATT HOUR", s!!"Kilojoule"] .leaf)) 15177889554483779444060695262346072278261403857878132506755646703415708846141735026 [s!!"miles per hour", s!!"mph", s!!"MPH", s!!"mi/hr", s!!"MILE PER HOUR", s!!"kilometer per hour"] (.node (.node (.node .leaf 15177932976531046836533758091320303602849572223265230635812941697180787183710109793 [s!!"sm3/day/bar", s!!"SM3/DAY/BARSA"] .leaf) 31830007538691019714475062880323184350520538710206766355126802749563955514811743702351988 [s!!"hour", s!!"WATT HOUR/WATT"] .leaf) 31830007538691019714475062880323184350520538710206766355126802749564112312197942886793330 [s!!"Watt", s!!"WATT HOUR/HOUR"] (.node .leaf 615687758590406669790784642718506525970320557611984421133700089039342539608148204663002082985395615210823684718706 [s!!"kilometers per hour", s!!"kph", s!!"KPH", s!!"km/hr", s!!"KILOMETER PER HOUR", s!!"mile per hour"] .leaf)))))))

/-- some of the declared conversions, both ways -/
def roadTree : Near :=
  (.node (.node (.node (.node (.node (.node (.node (.node .leaf 2097217 [s!!"Ampere", s!!"kA", s!!"mA", s!!"µA"] .leaf) 2097226 [s!!"Joule"] .leaf) 2097230 [s!!"Newton"] (.node .leaf 2097233 [s!!"Coulomb", s!!"kQ", s!!"mQ"] .leaf)) 2097238 [s!!"Volt", s!!"kV", s!!"MV", s!!"mV", s!!"µV"] (.node (.node (.node .leaf 2097239 [s!!"Watt", s!!"kW", s!!"MW", s!!"GW", s!!"mW"] .leaf) 2097256 [s!!"hour"] .leaf) 2097267 [s!!"second"] (.node .leaf 2098089 [s!!"Ohm", s!!"kΩ", s!!"MΩ", s!!"mΩ"] .leaf))) 4398195408983 [s!!"W"] (.node (.node (.node (.node .leaf 4398197506170 [s!!"Hertz", s!!"kHz", s!!"MHz", s!!"GHz"] .leaf) 4398207991894 [s!!"V"] .leaf) 4398207991895 [s!!"W"] (.node .leaf 4398207992745 [s!!"Ω"] .leaf)) 4398226866241 [s!!"Watt"] (.node (.node (.node .leaf 4398228963432 [s!!"Watt hour"] .leaf) 4398228963443 [s!!"Watt second"] .leaf) 4398270906433 [s!!"A"] (.node .leaf 4398270906442 [s!!"Kilojoule"] .leaf)))) 4398270906449 [s!!"Q"] (.node (.node (.node (.node (.node .leaf 4398270906454 [s!!"V"] .leaf) 4398270906455 [s!!"W"] .leaf) 4398270907305 [s!!"Ω"] (.node .leaf 4398275100722 [s!!"square meter", s!!"cm2"] .leaf)) 4398275100737 [s!!"A"] (.node (.node (.node .leaf 4398275100753 [s!!"Q"] .leaf) 4398275100758 [s!!"V"] .leaf) 4398275100759 [s!!"W"] (.node .leaf 4398275101609 [s!!"Ω"] .leaf))) 4398287683634 [s!!"s*s"] (.node (.node (.node (.node .leaf 4398426095681 [s!!"A"] .leaf) 4398426095702 [s!!"V"] .leaf) 9223587541232386163 [s!!"Hertz"] (.node .leaf 9223684298308059258 [s!!"Hz"] .leaf)) 9223697492395163763 [s!!"Watt"] (.node (.node .leaf 9223710686587125882 [s!!"Hz"] .leaf) 9223715084570722413 [s!!"Joule"] (.node .leaf 9223719482747256941 [s!!"V/A", s!!"Volt/Ampere", s!!"ohm", s!!"Ω"] .leaf))))) 9223732676836458573 [s!!"1/min", s!!"rpm"] (.node (.node (.node (.node (.node (.node .leaf 9223750268942811201 [s!!"Watt"] .leaf) 9223750268942811206 [s!!"Coulomb"] .leaf) 9223750268953296961 [s!!"Ohm"] (.node .leaf 9223754666989322344 [s!!"Watt hour"] .leaf)) 9223754666989322355 [s!!"Watt second"] (.node (.node (.node .leaf 9223754666999808065 [s!!"Volt"] .leaf) 9223754666999808086 [s!!"Ampere"] .leaf) 9223807443687964722 [s!!"m2"] (.node .leaf 9223811841709310073 [s!!"hour"] .leaf))) 9223811841759641710 [s!!"Dyne"] (.node (.node (.node (.node .leaf 9223820637842178098 [s!!"square foot"] .leaf) 9223833831969128498 [s!!"square inch"] .leaf) 9223842627982459002 [s!!"Hz"] (.node .leaf 9223842628013916264 [s!!"kilowatt hour"] .leaf)) 9223842628066345064 [s!!"kilometer per hour"] (.node (.node .leaf 9223851424012566637 [s!!"square meter"] .leaf) 9223851424144687214 [s!!"minute"] (.node .leaf 9223851424159367272 [s!!"mile per hour"] .leaf)))) 9223860220235612269 [s!!"Ohm"] (.node (.node (.node (.node (.node .leaf 9223873414391922797 [s!!"RPM"] .leaf) 9223877812291633267 [s!!"s2"] .leaf) 19343440303664736778584165 [s!!"Newton", s!!"dyne", s!!"dyn", s!!"g*cm/s2"] (.node .leaf 19343550984023625777021043 [s!!"N*s/m2", s!!"kg/m/s", s!!"Poise"] .leaf)) 19343606324317419695243380 [s!!"A*ohm", s!!"Ampere*Ohm", s!!"ohm*A", s!!"Ohm*Ampere", s!!"Watt/Ampere", s!!"W/A", s!!"V"] (.node (.node (.node .leaf 19343615547627883915640948 [s!!"Volt*Ampere", s!!"J/s", s!!"V*A", s!!"Watt hour/hour", s!!"Wh/h", s!!"W", s!!"VA"] .leaf) 19343615547658670096515159 [s!!"hour"] .leaf) 19343615547658670096515176 [s!!"Watt"] (.node .leaf 19343717004724687347908708 [s!!"bbl/day"] .leaf))) 19343735451569916131410021 [s!!"Dyne"] (.node (.node (.node (.node .leaf 19343772345014083100082290 [s!!"Watt hour/Watt", s!!"Wh/W", s!!"h", s!!"minute", s!!"day"] .leaf) 19343800015024640390856808 [s!!"kilowatt hour"] .leaf) 19343818461610384436494436 [s!!"m3/day"] (.node .leaf 19343818461610384436494445 [s!!"square meter"] .leaf)) 19343873802053711913025636 [s!!"scf/day"] (.node (.node .leaf 19343873802097692271181924 [s!!"sm3/day"] .leaf) 19343873802128478695325796 [s!!"stb/day"] (.node .leaf 40565767005579417633908408189042 [s!!"1/bara", s!!"1/barg"] .leaf)))))) 40565767005579417682286936588398 [s!!"RPM"] (.node (.node (.node (.node (.node (.node (.node .leaf 40565767005579417695481097093225 [s!!"1/psia", s!!"1/psig"] .leaf) 40566076490543122175967478415469 [s!!"Volt"] .leaf) 40566211890779097977803641979002 [s!!"1/s", s!!"Hz"] (.node .leaf 40566250576497559379499903090789 [s!!"kg*m2/s2", s!!"N*m", s!!"J", s!!"Kilojoule", s!!"Watt second"] .leaf)) 40566366633376242331124131430501 [s!!"dyne*s/cm2", s!!"Pa*s", s!!"g/cm/s"] (.node (.node (.node .leaf 40566482689664629551554453569645 [s!!"Ampere"] .leaf) 40566792175310863263700944420980 [s!!"square foot"] .leaf) 40566888889311868851767174234226 [s!!"kilometer per hour"] (.node .leaf 40566927574901203031753345728626 [s!!"mile per hour"] .leaf))) 40566966260518207600528835215425 [s!!"Volt"] (.node (.node (.node (.node .leaf 40567043631881343401238292594788 [s!!"sm3/day"] .leaf) 85072579407284886849786286050465808481 [s!!"1/bar"] .leaf) 85072579407284886849786286050465808487 [s!!"1/bar"] (.node .leaf 85072579407284886978913573731250995297 [s!!"1/psi"] .leaf)) 85072579407284886978913573731250995303 [s!!"1/psi"] (.node (.node .leaf 85073228445591458245424790611968393317 [s!!"W/V", s!!"Watt/Volt", s!!"Volt/Ohm", s!!"V/ohm", s!!"A"] .leaf) 85073755786945184737898809381259051058 [s!!"Pa*s"] (.node .leaf 85073755788086410748508810934814244974 [s!!"kg*m/s2", s!!"N", s!!"Dyne"] .leaf)))) 85074607649309106267697593763846160505 [s!!"scf/day", s!!"ft3/day"] (.node (.node (.node (.node (.node .leaf 85074729344037527598207069433452560500 [s!!"square foot"] .leaf) 85074769907522081239415497166877098099 [s!!"Poise"] .leaf) 85074932167882107507538250568975777907 [s!!"Pa*s"] (.node .leaf 85075013296514695832300535302311641209 [s!!"m3/d", s!!"m³/day"] .leaf)) 85075013297559208321520087997939187813 [s!!"hour", s!!"min", s!!"second"] (.node (.node (.node .leaf 85075013298990575910871295852109889657 [s!!"m3/day"] .leaf) 85075256686397080787652720304079241316 [s!!"minute", s!!"s"] .leaf) 178411661322393608046669558983231642707951714 [s!!"V*F", s!!"Volt*Farad", s!!"Q"] (.node .leaf 178413022450766040695442190847347447417536601 [s!!"stb/day"] .leaf))) 178414298510209902495980576055167382542352505 [s!!"bbld"] (.node (.node (.node (.node .leaf 178414638793306989077635152076495108024828025 [s!!"cf/day"] .leaf) 178414723860896923619366172010271167519653938 [s!!"Dyne"] .leaf) 178415064145738297426934791688058356612726834 [s!!"Newton"] (.node .leaf 178415744710309881187600720055092461288030329 [s!!"scfd", s!!"cf/day"] .leaf)) 178415744710715528393190284658033999753511033 [s!!"sm3d", s!!"stm3/day", s!!"stm3d", s!!"sm³/day"] (.node (.node .leaf 178415744710715530869070363228794549551759481 [s!!"sm3/day"] .leaf) 178415744710999483036753624394170400650559609 [s!!"stbd", s!!"STB/DAY"] (.node .leaf 374159762078850576191923454266164195618399012782189 [s!!"Ampere"] .leaf))))) 374163508603363361925491152258222628504136843264050 [s!!"Joule"] (.node (.node (.node (.node (.node (.node .leaf 374164935851566491800836817019771513143060013777010 [s!!"sm3/day/bar"] .leaf) 374164935851566491800836817019771513182642396725345 [s!!"sm3/day/kPa"] .leaf) 374164935852161987849494962074089438618679917936745 [s!!"stb/day/psi"] (.node .leaf 374164935852161988295707025556583610023469880705145 [s!!"sm3/day"] .leaf)) 784665777773504483969897321650957321391606186818230288485 [s!!"Joule", s!!"kJ", s!!"kilowatt hour"] (.node (.node (.node .leaf 784670267505107117491521020154246735052059177453573111922 [s!!"Watt*hour", s!!"W*h", s!!"Wh"] .leaf) 784670267505107117491521020154440163183197518121526100082 [s!!"Watt hour"] .leaf) 784670267505107117491521020154536877082745991792097755252 [s!!"Ampere"] (.node .leaf 784680743550984371413106382552255049878570931244798836833 [s!!"sm3/day/kPa"] .leaf))) 784680743550984371413108532486647868330994594012484075617 [s!!"sm3/day/bar"] (.node (.node (.node (.node .leaf 784680743552233217142541908769207995796490898802716180585 [s!!"stb/day/psi"] .leaf) 784680743552233217142544058703600814378041827260880650337 [s!!"stb/day/psi"] .leaf) 1645555558813587820605733153393797168699944973889688550225477741 [s!!"Volt"] (.node .leaf 1645566543739754024666063406358352350304688274272801514521100389 [s!!"Volt"] .leaf)) 1645572036206391498767429074338128720866180442624535890503925860 [s!!"Coulomb"] (.node (.node .leaf 1645583021138169870007143545557834785069921939938343997216391218 [s!!"Poise"] .leaf) 3451014686874306344423111418106355323019128183688152906884936661729381 [s!!"Watt"] (.node .leaf 3451014686874306344423111418106780675977779356767482125144226371993701 [s!!"Ohm"] .leaf)))) 3451016332367878740585382234991663721471104747062670834103450488275044 [s!!"Watt*second", s!!"W*s", s!!"Ws", s!!"Joule"] (.node (.node (.node (.node (.node .leaf 3451016332367878740585382234992514427388407093221329270622029908803684 [s!!"Watt second"] .leaf) 3451016332367878740585382234992939778318817460678116260951627508220005 [s!!"Volt"] .leaf) 3451062406504899362638243040082739663114255614178807606134461614260338 [s!!"sm3/day/bar"] (.node .leaf 3451062406504899362638243040082739663114255614178826052878535323811954 [s!!"sm3d/bar", s!!"sm3d/bara", s!!"sm3/day/bara", s!!"sm3/day/barsa", s!!"sm3/day-bar"] .leaf)) 3451062406504899362638243040082739663114255614178826052918117706760289 [s!!"sm3d/kPa", s!!"sm3/d/kPa"] (.node (.node (.node .leaf 3451062406508037938199476965106863664491055835189979518856852043464820 [s!!"ft3/ft", s!!"ft*ft", s!!"ft2", s!!"square inch"] .leaf) 3451062406508037938199476965106863664491055835190007188968564536115304 [s!!"in2", s!!"square foot"] .leaf) 3451062406510391844241494086116519890686298229535214459710120690450537 [s!!"stb/day/psi"] (.node .leaf 3451062406510391844241494086116519890686298229535232906454194400002153 [s!!"stbd/psi", s!!"stbd/psia", s!!"stb/day/psia", s!!"stb/d/psi", s!!"stb/day-psi"] .leaf))) 7237402427926562708155516667995597649979387389786353414446326111402886955105 [s!!"sm3/day/bar"] (.node (.node (.node (.node .leaf 7237402427933144778170909516327789347714746726880471327529248116745554624626 [s!!"m3/m", s!!"m*m", s!!"m2"] .leaf) 7237402427938081276934737805687431921792551704666272760236226694353315168353 [s!!"stb/day/psi"] .leaf) 15177875080472624779536275162382665987414422715896343086035785356194460644059119730 [s!!"kWh", s!!"kW*h", s!!"Kilojoule"] (.node .leaf 15177889554483779444060695262346072278261403857878132506755646703415708846141735026 [s!!"mi/hr", s!!"kilometer per hour", s!!"mph"] .leaf)) 15177932976531046836533758091320303602849572223265230635812941697180787183710109793 [s!!"sm3/day/bar"] (.node (.node .leaf 31830007538691019714475062880323184350520538710206766355126802749563955514811743702351988 [s!!"hour"] .leaf) 31830007538691019714475062880323184350520538710206766355126802749564112312197942886793330 [s!!"Watt"] (.node .leaf 615687758590406669790784642718506525970320557611984421133700089039342539608148204663002082985395615210823684718706 [s!!"km/hr", s!!"kph", s!!"mile per hour"] .leaf)))))))

/-- the same, one way each -/
def roadList : List (Str × Str) :=
  [(s!!"A", s!!"Ampere"), (s!!"A", s!!"kA"), (s!!"A", s!!"mA"), (s!!"A", s!!"µA"), (s!!"J", s!!"Joule"), (s!!"N", s!!"Newton"), (s!!"Q", s!!"Coulomb"), (s!!"Q", s!!"kQ"), (s!!"Q", s!!"mQ"), (s!!"V", s!!"Volt"), (s!!"V", s!!"kV"), (s!!"V", s!!"MV"), (s!!"V", s!!"mV"), (s!!"V", s!!"µV"), (s!!"W", s!!"Watt"), (s!!"W", s!!"kW"), (s!!"W", s!!"MW"), (s!!"W", s!!"GW"), (s!!"W", s!!"mW"), (s!!"h", s!!"hour"), (s!!"s", s!!"second"), (s!!"Ω", s!!"Ohm"), (s!!"Ω", s!!"kΩ"), (s!!"Ω", s!!"MΩ"), (s!!"Ω", s!!"mΩ"), (s!!"Hz", s!!"Hertz"), (s!!"Hz", s!!"kHz"), (s!!"Hz", s!!"MHz"), (s!!"Hz", s!!"GHz"), (s!!"VA", s!!"Watt"), (s!!"Wh", s!!"Watt hour"), (s!!"Ws", s!!"Watt second"), (s!!"kJ", s!!"Kilojoule"), (s!!"m2", s!!"square meter"), (s!!"m2", s!!"cm2"), (s!!"s2", s!!"s*s"), (s!!"1/s", s!!"Hertz"), (s!!"J/s", s!!"Watt"), (s!!"N*m", s!!"Joule"), (s!!"Ohm", s!!"V/A"), (s!!"Ohm", s!!"Volt/Ampere"), (s!!"Ohm", s!!"ohm"), (s!!"RPM", s!!"1/min"), (s!!"RPM", s!!"rpm"), (s!!"V*A", s!!"Watt"), (s!!"V*F", s!!"Coulomb"), (s!!"W*h", s!!"Watt hour"), (s!!"W*s", s!!"Watt second"), (s!!"W/A", s!!"Volt"), (s!!"W/V", s!!"Ampere"), (s!!"day", s!!"hour"), (s!!"dyn", s!!"Dyne"), (s!!"ft2", s!!"square foot"), (s!!"in2", s!!"square inch"), (s!!"kWh", s!!"kilowatt hour"), (s!!"kph", s!!"kilometer per hour"), (s!!"m*m", s!!"square meter"), (s!!"min", s!!"minute"), (s!!"mph", s!!"mile per hour"), (s!!"Dyne", s!!"Newton"), (s!!"Dyne", s!!"dyne"), (s!!"Dyne", s!!"g*cm/s2"), (s!!"Pa*s", s!!"N*s/m2"), (s!!"Pa*s", s!!"kg/m/s"), (s!!"Pa*s", s!!"Poise"), (s!!"Volt", s!!"A*ohm"), (s!!"Volt", s!!"Ampere*Ohm"), (s!!"Volt", s!!"ohm*A"), (s!!"Volt", s!!"Ohm*Ampere"), (s!!"Volt", s!!"Watt/Ampere"), (s!!"Watt", s!!"Volt*Ampere"), (s!!"Watt", s!!"Watt hour/hour"), (s!!"Watt", s!!"Wh/h"), (s!!"Wh/W", s!!"hour"), (s!!"bbld", s!!"bbl/day"), (s!!"hour", s!!"Watt hour/Watt"), (s!!"hour", s!!"minute"), (s!!"kW*h", s!!"kilowatt hour"), (s!!"m3/d", s!!"m3/day"), (s!!"m3/m", s!!"square meter"), (s!!"scfd", s!!"scf/day"), (s!!"sm3d", s!!"sm3/day"), (s!!"stbd", s!!"stb/day"), (s!!"1/bar", s!!"1/bara"), (s!!"1/bar", s!!"1/barg"), (s!!"1/psi", s!!"1/psia"), (s!!"1/psi", s!!"1/psig"), (s!!"Joule", s!!"kg*m2/s2"), (s!!"Joule", s!!"Kilojoule"), (s!!"Joule", s!!"Watt second"), (s!!"Poise", s!!"dyne*s/cm2"), (s!!"Poise", s!!"g/cm/s"), (s!!"V/ohm", s!!"Ampere"), (s!!"ft*ft", s!!"square foot"), (s!!"km/hr", s!!"kilometer per hour"), (s!!"mi/hr", s!!"mile per hour"), (s!!"stm3d", s!!"sm3/day"), (s!!"Ampere", s!!"Watt/Volt"), (s!!"Ampere", s!!"Volt/Ohm"), (s!!"Newton", s!!"kg*m/s2"), (s!!"cf/day", s!!"scf/day"), (s!!"cf/day", s!!"ft3/day"), (s!!"ft3/ft", s!!"square foot"), (s!!"m3/day", s!!"m³/day"), (s!!"minute", s!!"second"), (s!!"Coulomb", s!!"Volt*Farad"), (s!!"STB/DAY", s!!"stb/day"), (s!!"sm3/day", s!!"stm3/day"), (s!!"sm3/day", s!!"sm³/day"), (s!!"sm3d/bar", s!!"sm3/day/bar"), (s!!"sm3d/kPa", s!!"sm3/day/kPa"), (s!!"stbd/psi", s!!"stb/day/psi"), (s!!"Kilojoule", s!!"kilowatt hour"), (s!!"Watt hour", s!!"Watt*hour"), (s!!"sm3/d/kPa", s!!"sm3/day/kPa"), (s!!"sm3d/bara", s!!"sm3/day/bar"), (s!!"stb/d/psi", s!!"stb/day/psi"), (s!!"stbd/psia", s!!"stb/day/psi"), (s!!"Watt second", s!!"Watt*second"), (s!!"sm3/day-bar", s!!"sm3/day/bar"), (s!!"sm3/day/bar", s!!"sm3/day/bara"), (s!!"sm3/day/bar", s!!"sm3/day/barsa"), (s!!"square foot", s!!"square inch"), (s!!"stb/day-psi", s!!"stb/day/psi"), (s!!"stb/day/psi", s!!"stb/day/psia"), (s!!"mile per hour", s!!"kilometer per hour")]

end Unyts

import Verif.Lemmas.Affine

/- Written by tools/shippedtable.py: checked, not trusted. -/
namespace Unyts

/-- A search tree from the codes of the names to their readings and quantities. -/
inductive Table where
  | leaf
  | node (l : Table) (k : Nat) (sn sd : Nat) (on : Int) (od : Nat) (e : Int) (api : Bool) (q : Nat) (r : Table)

def table0 : Table := .node (.node (.node (.node (.node (.node .leaf 1 1 1 (0) 1 (0) false 32 .leaf) 2097186 127 5000 (0) 1 (0) false 4 .leaf) 2097187 473176473 1000000000000000000000000000000000000000000000000000000000000000000000000000000000000000000000000000000 (0) 1 (0) false 3 (.node (.node .leaf 2097189 1 100 (0) 1 (0) false 32 .leaf) 2097191 381 1250 (0) 1 (0) false 4 .leaf)) 2097217 1 1 (0) 1 (0) false 22 (.node (.node (.node .leaf 2097218 1 1 (0) 1 (0) false 14 .leaf) 2097219 1 1 (0) 1 (0) false 1 .leaf) 2097220 9869233 1000000000000000 (0) 1 (0) false 5 (.node .leaf 2097222 5 9 (-160) 9 (0) false 1 .leaf))) 2097223 1 1 (0) 1 (0) false 25 (.node (.node (.node (.node .leaf 2097224 1 1 (0) 1 (0) false 28 .leaf) 2097226 1 1 (0) 1 (0) false 19 .leaf) 2097227 1 1 (-5463) 20 (0) false 1 (.node .leaf 2097228 1 1 (0) 1 (0) false 28 .leaf)) 2097229 1 1 (0) 1 (0) false 4 (.node (.node (.node .leaf 2097230 1 1 (0) 1 (0) false 9 .leaf) 2097233 1 1 (0) 1 (0) false 27 .leaf) 2097234 5 9 (-5463) 20 (0) false 1 (.node .leaf 2097235 1000000000 1 (0) 1 (0) false 0 .leaf)))) 2097238 1 1 (0) 1 (0) false 21 (.node (.node (.node (.node (.node .leaf 2097239 31250 23303121 (0) 1 (0) false 20 .leaf) 2097250 1 8 (0) 1 (0) false 14 .leaf) 2097252 86400000000000 1 (0) 1 (0) false 0 (.node .leaf 2097255 6145149 5890810000000000000000000000000000000000000000000000000000000000000000000000000000000000000000000000000 (0) 1 (0) false 3 .leaf)) 2097256 3600000000000 1 (0) 1 (0) false 0 (.node (.node (.node .leaf 2097258 1 1 (0) 1 (0) false 19 .leaf) 2097260 1 1000000000000000000000000000000000000000000000000000000000000000000000000000000000000000000000 (0) 1 (0) false 3 .leaf) 2097261 1 1 (0) 1 (0) false 4 (.node .leaf 2097267 1000000000 1 (0) 1 (0) false 0 .leaf))) 2097268 3312235311 3125000000000000000000000000000000000000000000000000000000000000000000000000000000000000000000000000 (0) 1 (0) false 3 (.node (.node (.node (.node .leaf 2097271 604800000000000 1 (0) 1 (0) false 0 .leaf) 2097273 31557600000000000 1 (0) 1 (0) false 0 .leaf) 2098089 1 1 (0) 1 (0) false 23 (.node .leaf 2105639 1 1 (0) 1 (0) false 25 .leaf)) 4398182826069 149597870700 1 (0) 1 (0) false 4 (.node (.node (.node .leaf 4398187020358 55306341 1953125000000000000000000000000000000000000000000000000000000000000000000000000000000000000000000000 (0) 1 (0) false 3 .leaf) 4398187020365 1 1000000000000000000000000000000000000000000000000000000000000000000000000000000000000000000 (0) 1 (0) false 3 .leaf) 4398187020368 1 1 (0) 1 (0) false 16 (.node .leaf 4398191214657 1000000000000000000 1 (0) 1 (0) false 22 .leaf))))
def table1 : Table := .node (.node (.node (.node (.node (.node .leaf 4398191214660 9869233000 1 (0) 1 (0) false 5 .leaf) 4398191214662 5000000000000000000 9 (-160) 9 (0) false 1 .leaf) 4398191214664 1000000000000000000 1 (0) 1 (0) false 28 (.node (.node .leaf 4398191214673 1000000000000000000 1 (0) 1 (0) false 27 .leaf) 4398191214678 1000000000000000000 1 (0) 1 (0) false 21 .leaf)) 4398191214679 31250000000000000000000 23303121 (0) 1 (0) false 20 (.node (.node (.node .leaf 4398191214690 125000000000000000 1 (0) 1 (0) false 14 .leaf) 4398191214695 6145149 5890810000000000000000000000000000000000000000000000000000000000000000000000000000000 (0) 1 (0) false 3 .leaf) 4398191214700 1 1000000000000000000000000000000000000000000000000000000000000000000000000000 (0) 1 (0) false 3 (.node .leaf 4398191214701 1000000000000000000 1 (0) 1 (0) false 4 .leaf))) 4398191214707 1000000000000000000000000000 1 (0) 1 (0) false 0 (.node (.node (.node (.node .leaf 4398191215529 1000000000000000000 1 (0) 1 (0) false 23 .leaf) 4398191223079 1000000000000000000 1 (0) 1 (0) false 25 .leaf) 4398193311828 381 1250 (0) 1 (0) false 4 (.node .leaf 4398195408961 1000000000 1 (0) 1 (0) false 22 .leaf)) 4398195408962 1073741824 1 (0) 1 (0) false 14 (.node (.node (.node .leaf 4398195408964 9869233 1000000 (0) 1 (0) false 5 .leaf) 4398195408966 5000000000 9 (-160) 9 (0) false 1 .leaf) 4398195408968 1000000000 1 (0) 1 (0) false 28 (.node .leaf 4398195408977 1000000000 1 (0) 1 (0) false 27 .leaf)))) 4398195408982 1000000000 1 (0) 1 (0) false 21 (.node (.node (.node (.node (.node .leaf 4398195408983 31250000000000 23303121 (0) 1 (0) false 20 .leaf) 4398195408994 125000000 1 (0) 1 (0) false 14 .leaf) 4398195408999 6145149 5890810000000000000000000000000000000000000000000000000000000000000000000000000000000000000000 (0) 1 (0) false 3 (.node .leaf 4398195409004 1 1000000000000000000000000000000000000000000000000000000000000000000000000000000000000 (0) 1 (0) false 3 .leaf)) 4398195409005 1000000000 1 (0) 1 (0) false 4 (.node (.node (.node .leaf 4398195409011 1000000000000000000 1 (0) 1 (0) false 0 .leaf) 4398195409833 1000000000 1 (0) 1 (0) false 23 .leaf) 4398195417383 1000000000 1 (0) 1 (0) false 25 (.node .leaf 4398197506120 3600000000000 1 (0) 1 (0) false 0 .leaf))) 4398197506128 1 1 (0) 1 (0) false 20 (.node (.node (.node (.node .leaf 4398197506130 3600000000000 1 (0) 1 (0) false 0 .leaf) 4398197506138 1 1 (0) 1 (0) false 29 .leaf) 4398197506170 1 1 (0) 1 (0) false 29 (.node .leaf 4398199603278 127 5000 (0) 1 (0) false 4 .leaf)) 4398203797569 1000 1 (0) 1 (0) false 22 (.node (.node (.node .leaf 4398203797570 1024 1 (0) 1 (0) false 14 .leaf) 4398203797572 9869233 1000000000000 (0) 1 (0) false 5 .leaf) 4398203797574 5000 9 (-160) 9 (0) false 1 (.node .leaf 4398203797576 1000 1 (0) 1 (0) false 28 .leaf))))
def table2 : Table := .node table0 4398191214658 1152921504606846976 1 (0) 1 (0) false 14 table1
def table3 : Table := .node (.node (.node (.node (.node (.node .leaf 4398203797584 20000 196133 (0) 1 (0) false 9 .leaf) 4398203797585 1000 1 (0) 1 (0) false 27 .leaf) 4398203797590 1000 1 (0) 1 (0) false 21 (.node (.node .leaf 4398203797591 31250000 23303121 (0) 1 (0) false 20 .leaf) 4398203797602 125 1 (0) 1 (0) false 14 .leaf)) 4398203797607 6145149 5890810000000000000000000000000000000000000000000000000000000000000000000000000000000000000000000000 (0) 1 (0) false 3 (.node (.node (.node .leaf 4398203797612 1 1000000000000000000000000000000000000000000000000000000000000000000000000000000000000000000 (0) 1 (0) false 3 .leaf) 4398203797613 1000 1 (0) 1 (0) false 4 .leaf) 4398203797619 1000000000000 1 (0) 1 (0) false 0 (.node .leaf 4398203798441 1000 1 (0) 1 (0) false 23 .leaf))) 4398203805991 1000 1 (0) 1 (0) false 25 (.node (.node (.node (.node .leaf 4398205894722 473176473 1000000000000000000000000000000000000000000000000000000000000000000000000000000000000000000000000000000 (0) 1 (0) false 3 .leaf) 4398205894745 157678841209680 1 (0) 1 (0) false 4 .leaf) 4398207991858 10000 1 (0) 1 (0) false 5 (.node .leaf 4398207991859 1 1000000000000000000000000000000000000000000000000000000000000000000000000000000000000000000 (0) 1 (0) false 3 .leaf)) 4398207991873 1000000 1 (0) 1 (0) false 22 (.node (.node (.node .leaf 4398207991874 1048576 1 (0) 1 (0) false 14 .leaf) 4398207991876 9869233 1000000000 (0) 1 (0) false 5 .leaf) 4398207991878 5000000 9 (-160) 9 (0) false 1 (.node .leaf 4398207991880 1000000 1 (0) 1 (0) false 28 .leaf)))) 4398207991887 2629800000000000 1 (0) 1 (0) false 0 (.node (.node (.node (.node (.node .leaf 4398207991889 1000000 1 (0) 1 (0) false 27 .leaf) 4398207991891 1000000 1 (0) 1 (0) false 0 .leaf) 4398207991894 1000000 1 (0) 1 (0) false 21 (.node .leaf 4398207991895 31250000000 23303121 (0) 1 (0) false 20 .leaf)) 4398207991906 125000 1 (0) 1 (0) false 14 (.node (.node (.node .leaf 4398207991911 6145149 5890810000000000000000000000000000000000000000000000000000000000000000000000000000000000000000000 (0) 1 (0) false 3 .leaf) 4398207991916 1 1000000000000000000000000000000000000000000000000000000000000000000000000000000000000000 (0) 1 (0) false 3 .leaf) 4398207991917 1000000 1 (0) 1 (0) false 4 (.node .leaf 4398207991923 1000000000000000 1 (0) 1 (0) false 0 .leaf))) 4398207991986 10000 1 (0) 1 (0) false 5 (.node (.node (.node (.node .leaf 4398207991987 1 1000000000000000000000000000000000000000000000000000000000000000000000000000000000000000000 (0) 1 (0) false 3 .leaf) 4398207992745 1000000 1 (0) 1 (0) false 23 .leaf) 4398208000295 1000000 1 (0) 1 (0) false 25 (.node .leaf 4398210089043 1 1 (0) 1 (0) false 0 .leaf)) 4398212186202 473176473 16000000000000000000000000000000000000000000000000000000000000000000000000000000000000000000000000000000 (0) 1 (0) false 3 (.node (.node (.node .leaf 4398214283329 1000000000000000 1 (0) 1 (0) false 22 .leaf) 4398214283330 1125899906842624 1 (0) 1 (0) false 14 .leaf) 4398214283332 9869233 1 (0) 1 (0) false 5 (.node .leaf 4398214283334 5000000000000000 9 (-160) 9 (0) false 1 .leaf))))
def table4 : Table := .node (.node (.node (.node (.node (.node .leaf 4398214283345 1000000000000000 1 (0) 1 (0) false 27 .leaf) 4398214283350 1000000000000000 1 (0) 1 (0) false 21 .leaf) 4398214283351 31250000000000000000 23303121 (0) 1 (0) false 20 (.node (.node .leaf 4398214283361 1 1 (0) 1 (0) false 6 .leaf) 4398214283362 125000000000000 1 (0) 1 (0) false 14 .leaf)) 4398214283367 6145149 5890810000000000000000000000000000000000000000000000000000000000000000000000000000000000 (0) 1 (0) false 3 (.node (.node (.node .leaf 4398214283372 1 1000000000000000000000000000000000000000000000000000000000000000000000000000000 (0) 1 (0) false 3 .leaf) 4398214283373 1000000000000000 1 (0) 1 (0) false 4 .leaf) 4398214283379 1000000000000000000000000 1 (0) 1 (0) false 0 (.node .leaf 4398214284201 1000000000000000 1 (0) 1 (0) false 23 .leaf))) 4398214291751 1000000000000000 1 (0) 1 (0) false 25 (.node (.node (.node (.node .leaf 4398216380481 1000000000000000000000000000000 1 (0) 1 (0) false 22 .leaf) 4398216380484 9869233000000000000000 1 (0) 1 (0) false 5 .leaf) 4398216380486 5000000000000000000000000000000 9 (-160) 9 (0) false 1 (.node .leaf 4398216380488 1000000000000000000000000000000 1 (0) 1 (0) false 28 .leaf)) 4398216380497 1000000000000000000000000000000 1 (0) 1 (0) false 27 (.node (.node (.node .leaf 4398216380502 1000000000000000000000000000000 1 (0) 1 (0) false 21 .leaf) 4398216380503 31250000000000000000000000000000000 23303121 (0) 1 (0) false 20 .leaf) 4398216380519 6145149 5890810000000000000000000000000000000000000000000000000000000000000000000 (0) 1 (0) false 3 (.node .leaf 4398216380524 1 1000000000000000000000000000000000000000000000000000000000000000 (0) 1 (0) false 3 .leaf)))) 4398216380525 1000000000000000000000000000000 1 (0) 1 (0) false 4 (.node (.node (.node (.node (.node .leaf 4398216380531 1000000000000000000000000000000000000000 1 (0) 1 (0) false 0 .leaf) 4398216381353 1000000000000000000000000000000 1 (0) 1 (0) false 23 .leaf) 4398216388903 1000000000000000000000000000000 1 (0) 1 (0) false 25 (.node .leaf 4398218477633 1000000000000000000000000000 1 (0) 1 (0) false 22 .leaf)) 4398218477634 1 6289814000000000000000000000000000000000000000000000000000000000000000000000000000000000000 (0) 1 (-1) false 3 (.node (.node (.node .leaf 4398218477636 9869233000000000000 1 (0) 1 (0) false 5 .leaf) 4398218477638 5000000000000000000000000000 9 (-160) 9 (0) false 1 .leaf) 4398218477640 1000000000000000000000000000 1 (0) 1 (0) false 28 (.node .leaf 4398218477649 1000000000000000000000000000 1 (0) 1 (0) false 27 .leaf))) 4398218477654 1000000000000000000000000000 1 (0) 1 (0) false 21 (.node (.node (.node (.node .leaf 4398218477655 31250000000000000000000000000000 23303121 (0) 1 (0) false 20 .leaf) 4398218477671 6145149 5890810000000000000000000000000000000000000000000000000000000000000000000000 (0) 1 (0) false 3 .leaf) 4398218477676 1 1000000000000000000000000000000000000000000000000000000000000000000 (0) 1 (0) false 3 (.node .leaf 4398218477677 1000000000000000000000000000 1 (0) 1 (0) false 4 .leaf)) 4398218477683 1000000000000000000000000000000000000 1 (0) 1 (0) false 0 (.node (.node (.node .leaf 4398218478505 1000000000000000000000000000 1 (0) 1 (0) false 23 .leaf) 4398218486055 1000000000000000000000000000 1 (0) 1 (0) false 25 .leaf) 4398220574770 1 1 (0) 1 (0) false 36 (.node .leaf 4398220574803 1000000000 1 (0) 1 (0) false 0 .leaf))))
def table5 : Table := .node table3 4398214283336 1000000000000000 1 (0) 1 (0) false 28 table4
def table6 : Table := .node table2 4398203797578 1000 1 (0) 1 (0) false 19 table5
def table7 : Table := .node (.node (.node (.node (.node (.node .leaf 4398222671938 1099511627776 1 (0) 1 (0) false 14 .leaf) 4398222671940 9869233 1000 (0) 1 (0) false 5 .leaf) 4398222671942 5000000000000 9 (-160) 9 (0) false 1 (.node (.node .leaf 4398222671944 1000000000000 1 (0) 1 (0) false 28 .leaf) 4398222671953 1000000000000 1 (0) 1 (0) false 27 .leaf)) 4398222671958 1000000000000 1 (0) 1 (0) false 21 (.node (.node (.node .leaf 4398222671959 31250000000000000 23303121 (0) 1 (0) false 20 .leaf) 4398222671970 125000000000 1 (0) 1 (0) false 14 .leaf) 4398222671975 6145149 5890810000000000000000000000000000000000000000000000000000000000000000000000000000000000000 (0) 1 (0) false 3 (.node .leaf 4398222671980 1 1000000000000000000000000000000000000000000000000000000000000000000000000000000000 (0) 1 (0) false 3 .leaf))) 4398222671981 1000000000000 1 (0) 1 (0) false 4 (.node (.node (.node (.node .leaf 4398222671987 1000000000000000000000 1 (0) 1 (0) false 0 .leaf) 4398222672809 1000000000000 1 (0) 1 (0) false 23 .leaf) 4398222680359 1000000000000 1 (0) 1 (0) false 25 (.node .leaf 4398226866241 31250 23303121 (0) 1 (0) false 20 .leaf)) 4398228963397 604800000000000 1 (0) 1 (0) false 0 (.node (.node (.node .leaf 4398228963400 3600 1 (0) 1 (0) false 19 .leaf) 4398228963411 1 1 (0) 1 (0) false 19 .leaf) 4398228963432 3600 1 (0) 1 (0) false 19 (.node .leaf 4398228963443 1 1 (0) 1 (0) false 19 .leaf)))) 4398233157697 1000000000000000000000000 1 (0) 1 (0) false 22 (.node (.node (.node (.node (.node .leaf 4398233157698 1208925819614629174706176 1 (0) 1 (0) false 14 .leaf) 4398233157700 9869233000000000 1 (0) 1 (0) false 5 .leaf) 4398233157702 5000000000000000000000000 9 (-160) 9 (0) false 1 (.node .leaf 4398233157704 1000000000000000000000000 1 (0) 1 (0) false 28 .leaf)) 4398233157713 1000000000000000000000000 1 (0) 1 (0) false 27 (.node (.node (.node .leaf 4398233157718 1000000000000000000000000 1 (0) 1 (0) false 21 .leaf) 4398233157719 31250000000000000000000000000 23303121 (0) 1 (0) false 20 .leaf) 4398233157721 31557600000000000 1 (0) 1 (0) false 0 (.node .leaf 4398233157730 125000000000000000000000 1 (0) 1 (0) false 14 .leaf))) 4398233157735 6145149 5890810000000000000000000000000000000000000000000000000000000000000000000000000 (0) 1 (0) false 3 (.node (.node (.node (.node .leaf 4398233157740 1 1000000000000000000000000000000000000000000000000000000000000000000000 (0) 1 (0) false 3 .leaf) 4398233157741 1000000000000000000000000 1 (0) 1 (0) false 4 .leaf) 4398233157747 1000000000000000000000000000000000 1 (0) 1 (0) false 0 (.node .leaf 4398233158569 1000000000000000000000000 1 (0) 1 (0) false 23 .leaf)) 4398233166119 1000000000000000000000000 1 (0) 1 (0) false 25 (.node (.node (.node .leaf 4398235254849 1000000000000000000000 1 (0) 1 (0) false 22 .leaf) 4398235254850 1180591620717411303424 1 (0) 1 (0) false 14 .leaf) 4398235254852 9869233000000 1 (0) 1 (0) false 5 (.node .leaf 4398235254854 5000000000000000000000 9 (-160) 9 (0) false 1 .leaf))))
def table8 : Table := .node (.node (.node (.node (.node (.node .leaf 4398235254865 1000000000000000000000 1 (0) 1 (0) false 27 .leaf) 4398235254870 1000000000000000000000 1 (0) 1 (0) false 21 .leaf) 4398235254871 31250000000000000000000000 23303121 (0) 1 (0) false 20 (.node (.node .leaf 4398235254882 125000000000000000000 1 (0) 1 (0) false 14 .leaf) 4398235254887 6145149 5890810000000000000000000000000000000000000000000000000000000000000000000000000000 (0) 1 (0) false 3 .leaf)) 4398235254892 1 1000000000000000000000000000000000000000000000000000000000000000000000000 (0) 1 (0) false 3 (.node (.node (.node .leaf 4398235254893 1000000000000000000000 1 (0) 1 (0) false 4 .leaf) 4398235254899 1000000000000000000000000000000 1 (0) 1 (0) false 0 .leaf) 4398235255721 1000000000000000000000 1 (0) 1 (0) false 23 (.node .leaf 4398235263271 1000000000000000000000 1 (0) 1 (0) false 25 .leaf))) 4398249934913 1 1000000000000000000 (0) 1 (0) false 22 (.node (.node (.node (.node .leaf 4398249934916 9869233 1000000000000000000000000000000000 (0) 1 (0) false 5 .leaf) 4398249934918 1 1800000000000000000 (-160) 9 (0) false 1 .leaf) 4398249934920 1 1000000000000000000 (0) 1 (0) false 28 (.node .leaf 4398249934929 1 1000000000000000000 (0) 1 (0) false 27 .leaf)) 4398249934934 1 1000000000000000000 (0) 1 (0) false 21 (.node (.node (.node .leaf 4398249934935 1 745699872000000000000 (0) 1 (0) false 20 .leaf) 4398249934951 6145149 5890810000000000000000000000000000000000000000000000000000000000000000000000000000000000000000000000000000000000000000000 (0) 1 (0) false 3 .leaf) 4398249934956 1 1000000000000000000000000000000000000000000000000000000000000000000000000000000000000000000000000000000000000000 (0) 1 (0) false 3 (.node .leaf 4398249934957 1 1000000000000000000 (0) 1 (0) false 4 .leaf)))) 4398249934963 1 1000000000 (0) 1 (0) false 0 (.node (.node (.node (.node (.node .leaf 4398249934965 149597870700 1 (0) 1 (0) false 4 .leaf) 4398249935785 1 1000000000000000000 (0) 1 (0) false 23 .leaf) 4398249943335 1 1000000000000000000 (0) 1 (0) false 25 (.node .leaf 4398254129217 1 100 (0) 1 (0) false 22 .leaf)) 4398254129220 9869233 100000000000000000 (0) 1 (0) false 5 (.node (.node (.node .leaf 4398254129222 1 180 (-160) 9 (0) false 1 .leaf) 4398254129224 1 100 (0) 1 (0) false 28 .leaf) 4398254129232 1 1 (0) 1 (0) false 16 (.node .leaf 4398254129233 1 100 (0) 1 (0) false 27 .leaf))) 4398254129238 1 100 (0) 1 (0) false 21 (.node (.node (.node (.node .leaf 4398254129239 625 46606242 (0) 1 (0) false 20 .leaf) 4398254129251 1 1000000000000000000000000000000000000000000000000000000000000000000000000000000000000000000000000 (0) 1 (0) false 3 .leaf) 4398254129254 55306341 1953125000000000000000000000000000000000000000000000000000000000000000000000000000000000000000000000 (0) 1 (0) false 3 (.node .leaf 4398254129255 6145149 589081000000000000000000000000000000000000000000000000000000000000000000000000000000000000000000000000000 (0) 1 (0) false 3 .leaf)) 4398254129256 12573 625 (0) 1 (0) false 4 (.node (.node (.node .leaf 4398254129260 1 100000000000000000000000000000000000000000000000000000000000000000000000000000000000000000000000 (0) 1 (0) false 3 .leaf) 4398254129261 1 100 (0) 1 (0) false 4 .leaf) 4398254129267 10000000 1 (0) 1 (0) false 0 (.node .leaf 4398254130089 1 100 (0) 1 (0) false 23 .leaf))))
def table9 : Table := .node table7 4398235254856 1000000000000000000000 1 (0) 1 (0) false 28 table8
def table10 : Table := .node (.node (.node (.node (.node (.node .leaf 4398256226369 1 10 (0) 1 (0) false 22 .leaf) 4398256226372 9869233 10000000000000000 (0) 1 (0) false 5 .leaf) 4398256226374 1 18 (-160) 9 (0) false 1 (.node (.node .leaf 4398256226376 1 10 (0) 1 (0) false 28 .leaf) 4398256226385 1 10 (0) 1 (0) false 27 .leaf)) 4398256226390 1 10 (0) 1 (0) false 21 (.node (.node (.node .leaf 4398256226391 3125 23303121 (0) 1 (0) false 20 .leaf) 4398256226407 6145149 58908100000000000000000000000000000000000000000000000000000000000000000000000000000000000000000000000000 (0) 1 (0) false 3 .leaf) 4398256226412 1 10000000000000000000000000000000000000000000000000000000000000000000000000000000000000000000000 (0) 1 (0) false 3 (.node .leaf 4398256226413 1 10 (0) 1 (0) false 4 .leaf))) 4398256226418 473176473 256000000000000000000000000000000000000000000000000000000000000000000000000000000000000000000000000000000 (0) 1 (0) false 3 (.node (.node (.node (.node .leaf 4398256226419 100000000 1 (0) 1 (0) false 0 .leaf) 4398256227241 1 10 (0) 1 (0) false 23 .leaf) 4398256234791 1 10 (0) 1 (0) false 25 (.node .leaf 4398260420673 1 1000000000000000 (0) 1 (0) false 22 .leaf)) 4398260420676 9869233 1000000000000000000000000000000 (0) 1 (0) false 5 (.node (.node (.node .leaf 4398260420678 1 1800000000000000 (-160) 9 (0) false 1 .leaf) 4398260420680 1 1000000000000000 (0) 1 (0) false 28 .leaf) 4398260420689 1 1000000000000000 (0) 1 (0) false 27 (.node .leaf 4398260420694 1 1000000000000000 (0) 1 (0) false 21 .leaf)))) 4398260420695 1 745699872000000000 (0) 1 (0) false 20 (.node (.node (.node (.node (.node .leaf 4398260420711 6145149 5890810000000000000000000000000000000000000000000000000000000000000000000000000000000000000000000000000000000000000000 (0) 1 (0) false 3 .leaf) 4398260420716 1 1000000000000000000000000000000000000000000000000000000000000000000000000000000000000000000000000000000000000 (0) 1 (0) false 3 .leaf) 4398260420717 1 1000000000000000 (0) 1 (0) false 4 (.node .leaf 4398260420723 1 1000000 (0) 1 (0) false 0 .leaf)) 4398260420724 381 1250 (0) 1 (0) false 4 (.node (.node (.node .leaf 4398260421545 1 1000000000000000 (0) 1 (0) false 23 .leaf) 4398260429095 1 1000000000000000 (0) 1 (0) false 25 .leaf) 4398262517865 473176473 4000000000000000000000000000000000000000000000000000000000000000000000000000000000000000000000000000000 (0) 1 (0) false 3 (.node .leaf 4398262517874 3981988955361 58908100000000000000000000000000000000000000000000000000000000000000000000000000000000000000000000000000000000 (0) 1 (0) false 3 .leaf))) 4398264614977 100 1 (0) 1 (0) false 22 (.node (.node (.node (.node .leaf 4398264614980 9869233 10000000000000 (0) 1 (0) false 5 .leaf) 4398264614982 500 9 (-160) 9 (0) false 1 .leaf) 4398264614984 100 1 (0) 1 (0) false 28 (.node .leaf 4398264614993 100 1 (0) 1 (0) false 27 .leaf)) 4398264614998 100 1 (0) 1 (0) false 21 (.node (.node (.node .leaf 4398264614999 3125000 23303121 (0) 1 (0) false 20 .leaf) 4398264615015 6145149 58908100000000000000000000000000000000000000000000000000000000000000000000000000000000000000000000000 (0) 1 (0) false 3 .leaf) 4398264615016 3600000000000 1 (0) 1 (0) false 0 (.node .leaf 4398264615020 1 10000000000000000000000000000000000000000000000000000000000000000000000000000000000000000000 (0) 1 (0) false 3 .leaf))))
def table11 : Table := .node (.node (.node (.node (.node (.node .leaf 4398264615024 1 1 (0) 1 (0) false 20 .leaf) 4398264615026 3600000000000 1 (0) 1 (0) false 0 .leaf) 4398264615027 100000000000 1 (0) 1 (0) false 0 (.node .leaf 4398264615849 100 1 (0) 1 (0) false 23 .leaf)) 4398264623399 100 1 (0) 1 (0) false 25 (.node (.node (.node .leaf 4398266712174 127 5000 (0) 1 (0) false 4 .leaf) 4398270906433 1000 1 (0) 1 (0) false 22 .leaf) 4398270906434 1024 1 (0) 1 (0) false 14 (.node .leaf 4398270906436 9869233 1000000000000 (0) 1 (0) false 5 .leaf))) 4398270906438 5000 9 (-160) 9 (0) false 1 (.node (.node (.node (.node .leaf 4398270906440 1000 1 (0) 1 (0) false 28 .leaf) 4398270906442 1000 1 (0) 1 (0) false 19 .leaf) 4398270906449 1000 1 (0) 1 (0) false 27 (.node .leaf 4398270906454 1000 1 (0) 1 (0) false 21 .leaf)) 4398270906455 31250000 23303121 (0) 1 (0) false 20 (.node (.node (.node .leaf 4398270906466 125 1 (0) 1 (0) false 14 .leaf) 4398270906471 6145149 5890810000000000000000000000000000000000000000000000000000000000000000000000000000000000000000000000 (0) 1 (0) false 3 .leaf) 4398270906474 1000 1 (0) 1 (0) false 19 (.node .leaf 4398270906476 1 1000000000000000000000000000000000000000000000000000000000000000000000000000000000000000000 (0) 1 (0) false 3 .leaf)))) 4398270906477 1000 1 (0) 1 (0) false 4 (.node (.node (.node (.node (.node .leaf 4398270906480 20000 196133 (0) 1 (0) false 9 .leaf) 4398270906483 1000000000000 1 (0) 1 (0) false 0 .leaf) 4398270907305 1000 1 (0) 1 (0) false 23 (.node .leaf 4398270914855 1000 1 (0) 1 (0) false 25 .leaf)) 4398273003618 473176473 1000000000000000000000000000000000000000000000000000000000000000000000000000000000000000000000000000000 (0) 1 (0) false 3 (.node (.node (.node .leaf 4398273003641 157678841209680 1 (0) 1 (0) false 4 .leaf) 4398275100722 10000 1 (0) 1 (0) false 5 .leaf) 4398275100723 1 1000000000000000000000000000000000000000000000000000000000000000000000000000000000000000000 (0) 1 (0) false 3 (.node .leaf 4398275100737 1 1000 (0) 1 (0) false 22 .leaf))) 4398275100740 9869233 1000000000000000000 (0) 1 (0) false 5 (.node (.node (.node (.node .leaf 4398275100742 1 1800 (-160) 9 (0) false 1 .leaf) 4398275100744 1 1000 (0) 1 (0) false 28 .leaf) 4398275100753 1 1000 (0) 1 (0) false 27 (.node .leaf 4398275100758 1 1000 (0) 1 (0) false 21 .leaf)) 4398275100759 125 93212484 (0) 1 (0) false 20 (.node (.node (.node .leaf 4398275100775 6145149 5890810000000000000000000000000000000000000000000000000000000000000000000000000000000000000000000000000000 (0) 1 (0) false 3 .leaf) 4398275100777 201168 125 (0) 1 (0) false 4 .leaf) 4398275100780 1 1000000000000000000000000000000000000000000000000000000000000000000000000000000000000000000000000 (0) 1 (0) false 3 (.node .leaf 4398275100781 1 1000 (0) 1 (0) false 4 .leaf))))
def table12 : Table := .node table10 4398264615021 100 1 (0) 1 (0) false 4 table11
def table13 : Table := .node table9 4398254137639 1 100 (0) 1 (0) false 25 table12
def table14 : Table := .node table6 4398222671937 1000000000000 1 (0) 1 (0) false 22 table13
def table15 : Table := .node (.node (.node (.node (.node (.node .leaf 4398275100787 1000000 1 (0) 1 (0) false 0 .leaf) 4398275100850 10000 1 (0) 1 (0) false 5 .leaf) 4398275100851 1 1000000000000000000000000000000000000000000000000000000000000000000000000000000000000000000 (0) 1 (0) false 3 (.node (.node .leaf 4398275101609 1 1000 (0) 1 (0) false 23 .leaf) 4398275109159 1 1000 (0) 1 (0) false 25 .leaf)) 4398277197889 1 1000000000 (0) 1 (0) false 22 (.node (.node (.node .leaf 4398277197892 9869233 1000000000000000000000000 (0) 1 (0) false 5 .leaf) 4398277197894 1 1800000000 (-160) 9 (0) false 1 .leaf) 4398277197896 1 1000000000 (0) 1 (0) false 28 (.node .leaf 4398277197905 1 1000000000 (0) 1 (0) false 27 .leaf))) 4398277197910 1 1000000000 (0) 1 (0) false 21 (.node (.node (.node (.node .leaf 4398277197911 1 745699872000 (0) 1 (0) false 20 .leaf) 4398277197927 6145149 5890810000000000000000000000000000000000000000000000000000000000000000000000000000000000000000000000000000000000 (0) 1 (0) false 3 .leaf) 4398277197932 1 1000000000000000000000000000000000000000000000000000000000000000000000000000000000000000000000000000000 (0) 1 (0) false 3 (.node .leaf 4398277197933 1 1000000000 (0) 1 (0) false 4 .leaf)) 4398277197939 1 1 (0) 1 (0) false 0 (.node (.node (.node .leaf 4398277198761 1 1000000000 (0) 1 (0) false 23 .leaf) 4398277206311 1 1000000000 (0) 1 (0) false 25 .leaf) 4398279295098 473176473 16000000000000000000000000000000000000000000000000000000000000000000000000000000000000000000000000000000 (0) 1 (0) false 3 (.node .leaf 4398281392193 1 1000000000000 (0) 1 (0) false 22 .leaf)))) 4398281392196 9869233 1000000000000000000000000000 (0) 1 (0) false 5 (.node (.node (.node (.node (.node .leaf 4398281392198 1 1800000000000 (-160) 9 (0) false 1 .leaf) 4398281392200 1 1000000000000 (0) 1 (0) false 28 .leaf) 4398281392209 1 1000000000000 (0) 1 (0) false 27 (.node .leaf 4398281392214 1 1000000000000 (0) 1 (0) false 21 .leaf)) 4398281392215 1 745699872000000 (0) 1 (0) false 20 (.node (.node (.node .leaf 4398281392227 55306341 1953125000000000000000000000000000000000000000000000000000000000000000000000000000000000000000000000 (0) 1 (0) false 3 .leaf) 4398281392231 6145149 5890810000000000000000000000000000000000000000000000000000000000000000000000000000000000000000000000000000000000000 (0) 1 (0) false 3 .leaf) 4398281392236 1 1000000000000000000000000000000000000000000000000000000000000000000000000000000000000000000000000000000000 (0) 1 (0) false 3 (.node .leaf 4398281392237 1 1000000000000 (0) 1 (0) false 4 .leaf))) 4398281392243 1 1000 (0) 1 (0) false 0 (.node (.node (.node (.node .leaf 4398281392244 473176473 1000000000000000000000000000000000000000000000000000000000000000000000000000000000000000000000000000000 (0) 1 (0) false 3 .leaf) 4398281393065 1 1000000000000 (0) 1 (0) false 23 .leaf) 4398281400615 1 1000000000000 (0) 1 (0) false 25 (.node .leaf 4398283489345 1 1000000000000000000000000000000 (0) 1 (0) false 22 .leaf)) 4398283489348 9869233 1000000000000000000000000000000000000000000000 (0) 1 (0) false 5 (.node (.node (.node .leaf 4398283489350 1 1800000000000000000000000000000 (-160) 9 (0) false 1 .leaf) 4398283489352 1 1000000000000000000000000000000 (0) 1 (0) false 28 .leaf) 4398283489361 1 1000000000000000000000000000000 (0) 1 (0) false 27 (.node .leaf 4398283489366 1 1000000000000000000000000000000 (0) 1 (0) false 21 .leaf))))
def table16 : Table := .node (.node (.node (.node (.node (.node .leaf 4398283489383 6145149 5890810000000000000000000000000000000000000000000000000000000000000000000000000000000000000000000000000000000000000000000000000000000 (0) 1 (0) false 3 .leaf) 4398283489388 1 1000000000000000000000000000000000000000000000000000000000000000000000000000000000000000000000000000000000000000000000000000 (0) 1 (0) false 3 .leaf) 4398283489389 1 1000000000000000000000000000000 (0) 1 (0) false 4 (.node (.node .leaf 4398283489394 3312235311 250000000000000000000000000000000000000000000000000000000000000000000000000000000000000000000000000000 (0) 1 (0) false 3 .leaf) 4398283489395 1 1000000000000000000000 (0) 1 (0) false 0 .leaf)) 4398283489396 473176473 500000000000000000000000000000000000000000000000000000000000000000000000000000000000000000000000000000 (0) 1 (0) false 3 (.node (.node (.node .leaf 4398283490217 1 1000000000000000000000000000000 (0) 1 (0) false 23 .leaf) 4398283497767 1 1000000000000000000000000000000 (0) 1 (0) false 25 .leaf) 4398285586497 1 1000000000000000000000000000 (0) 1 (0) false 22 (.node .leaf 4398285586500 9869233 1000000000000000000000000000000000000000000 (0) 1 (0) false 5 .leaf))) 4398285586502 1 1800000000000000000000000000 (-160) 9 (0) false 1 (.node (.node (.node (.node .leaf 4398285586504 1 1000000000000000000000000000 (0) 1 (0) false 28 .leaf) 4398285586513 1 1000000000000000000000000000 (0) 1 (0) false 27 .leaf) 4398285586518 1 1000000000000000000000000000 (0) 1 (0) false 21 (.node .leaf 4398285586519 1 745699872000000000000000000000 (0) 1 (0) false 20 .leaf)) 4398285586530 1 6289814000000000000000000000000000000000000000000000000000000000000000000000000000000000000 (0) 1 (-1) false 3 (.node (.node (.node .leaf 4398285586532 12573 2500 (0) 1 (0) false 4 .leaf) 4398285586535 6145149 5890810000000000000000000000000000000000000000000000000000000000000000000000000000000000000000000000000000000000000000000000000000 (0) 1 (0) false 3 .leaf) 4398285586540 1 1000000000000000000000000000000000000000000000000000000000000000000000000000000000000000000000000000000000000000000000000 (0) 1 (0) false 3 (.node .leaf 4398285586541 1 1000000000000000000000000000 (0) 1 (0) false 4 .leaf)))) 4398285586547 1 1000000000000000000 (0) 1 (0) false 0 (.node (.node (.node (.node (.node .leaf 4398285587369 1 1000000000000000000000000000 (0) 1 (0) false 23 .leaf) 4398285594919 1 1000000000000000000000000000 (0) 1 (0) false 25 .leaf) 4398287683634 1 1 (0) 1 (0) false 36 (.node .leaf 4398287683699 1000000000 1 (0) 1 (0) false 0 .leaf)) 4398287683700 3312235311 500000000000000000000000000000000000000000000000000000000000000000000000000000000000000000000000000000 (0) 1 (0) false 3 (.node (.node (.node .leaf 4398289780837 127 50000 (0) 1 (0) false 4 .leaf) 4398289780840 127 5000000 (0) 1 (0) false 4 .leaf) 4398291877953 1 1000000 (0) 1 (0) false 22 (.node .leaf 4398291877956 9869233 1000000000000000000000 (0) 1 (0) false 5 .leaf))) 4398291877958 1 1800000 (-160) 9 (0) false 1 (.node (.node (.node (.node .leaf 4398291877960 1 1000000 (0) 1 (0) false 28 .leaf) 4398291877969 1 1000000 (0) 1 (0) false 27 .leaf) 4398291877974 1 1000000 (0) 1 (0) false 21 (.node .leaf 4398291877975 1 745699872 (0) 1 (0) false 20 .leaf)) 4398291877991 6145149 5890810000000000000000000000000000000000000000000000000000000000000000000000000000000000000000000000000000000 (0) 1 (0) false 3 (.node (.node (.node .leaf 4398291877996 1 1000000000000000000000000000000000000000000000000000000000000000000000000000000000000000000000000000 (0) 1 (0) false 3 .leaf) 4398291877997 1 1000000 (0) 1 (0) false 4 .leaf) 4398291878003 1000 1 (0) 1 (0) false 0 (.node .leaf 4398291878825 1 1000000 (0) 1 (0) false 23 .leaf))))
def table17 : Table := .node table15 4398283489367 1 745699872000000000000000000000000 (0) 1 (0) false 20 table16
def table18 : Table := .node (.node (.node (.node (.node (.node .leaf 4398296072293 604800000000000 1 (0) 1 (0) false 0 .leaf) 4398296072296 3600 1 (0) 1 (0) false 19 .leaf) 4398296072307 1 1 (0) 1 (0) false 19 (.node (.node .leaf 4398300266561 1 1000000000000000000000000 (0) 1 (0) false 22 .leaf) 4398300266564 9869233 1000000000000000000000000000000000000000 (0) 1 (0) false 5 .leaf)) 4398300266566 1 1800000000000000000000000 (-160) 9 (0) false 1 (.node (.node (.node .leaf 4398300266568 1 1000000000000000000000000 (0) 1 (0) false 28 .leaf) 4398300266577 1 1000000000000000000000000 (0) 1 (0) false 27 .leaf) 4398300266582 1 1000000000000000000000000 (0) 1 (0) false 21 (.node .leaf 4398300266583 1 745699872000000000000000000 (0) 1 (0) false 20 .leaf))) 4398300266596 1143 1250 (0) 1 (0) false 4 (.node (.node (.node (.node .leaf 4398300266599 6145149 5890810000000000000000000000000000000000000000000000000000000000000000000000000000000000000000000000000000000000000000000000000 (0) 1 (0) false 3 .leaf) 4398300266604 1 1000000000000000000000000000000000000000000000000000000000000000000000000000000000000000000000000000000000000000000000 (0) 1 (0) false 3 .leaf) 4398300266605 1 1000000000000000000000000 (0) 1 (0) false 4 (.node .leaf 4398300266611 1 1000000000000000 (0) 1 (0) false 0 .leaf)) 4398300266617 31557600000000000 1 (0) 1 (0) false 0 (.node (.node (.node .leaf 4398300267433 1 1000000000000000000000000 (0) 1 (0) false 23 .leaf) 4398300274983 1 1000000000000000000000000 (0) 1 (0) false 25 .leaf) 4398302363713 1 1000000000000000000000 (0) 1 (0) false 22 (.node .leaf 4398302363716 9869233 1000000000000000000000000000000000000 (0) 1 (0) false 5 .leaf)))) 4398302363718 1 1800000000000000000000 (-160) 9 (0) false 1 (.node (.node (.node (.node (.node .leaf 4398302363720 1 1000000000000000000000 (0) 1 (0) false 28 .leaf) 4398302363729 1 1000000000000000000000 (0) 1 (0) false 27 .leaf) 4398302363734 1 1000000000000000000000 (0) 1 (0) false 21 (.node .leaf 4398302363735 1 745699872000000000000000 (0) 1 (0) false 20 .leaf)) 4398302363751 6145149 5890810000000000000000000000000000000000000000000000000000000000000000000000000000000000000000000000000000000000000000000000 (0) 1 (0) false 3 (.node (.node (.node .leaf 4398302363756 1 1000000000000000000000000000000000000000000000000000000000000000000000000000000000000000000000000000000000000000000 (0) 1 (0) false 3 .leaf) 4398302363757 1 1000000000000000000000 (0) 1 (0) false 4 .leaf) 4398302363763 1 1000000000000 (0) 1 (0) false 0 (.node .leaf 4398302364585 1 1000000000000000000000 (0) 1 (0) false 23 .leaf))) 4398302372135 1 1000000000000000000000 (0) 1 (0) false 25 (.node (.node (.node (.node .leaf 4398426095681 1 1000000 (0) 1 (0) false 22 .leaf) 4398426095684 9869233 1000000000000000000000 (0) 1 (0) false 5 .leaf) 4398426095686 1 1800000 (-160) 9 (0) false 1 (.node .leaf 4398426095688 1 1000000 (0) 1 (0) false 28 .leaf)) 4398426095697 1 1000000 (0) 1 (0) false 27 (.node (.node (.node .leaf 4398426095702 1 1000000 (0) 1 (0) false 21 .leaf) 4398426095703 1 745699872 (0) 1 (0) false 20 .leaf) 4398426095719 6145149 5890810000000000000000000000000000000000000000000000000000000000000000000000000000000000000000000000000000000 (0) 1 (0) false 3 (.node .leaf 4398426095724 1 1000000000000000000000000000000000000000000000000000000000000000000000000000000000000000000000000000 (0) 1 (0) false 3 .leaf))))
def table19 : Table := .node (.node (.node (.node (.node (.node .leaf 4398426095731 1000 1 (0) 1 (0) false 0 .leaf) 4398426096553 1 1000000 (0) 1 (0) false 23 .leaf) 4398426104103 1 1000000 (0) 1 (0) false 25 (.node .leaf 9223587541232386131 1 1 (0) 1 (0) false 29 .leaf)) 9223587541232386163 1 1 (0) 1 (0) false 29 (.node (.node (.node .leaf 9223657910045769801 10404660096024101 24000000000000000 (0) 1 (0) true 10 .leaf) 9223657910049964101 1000000 1 (0) 1 (0) false 5 .leaf) 9223657910054158413 101325 1 (0) 1 (0) false 6 (.node .leaf 9223657910316302415 31557600000000000 1 (0) 1 (0) false 0 .leaf))) 9223662308060823634 100000 1 (0) 1 (0) false 6 (.node (.node (.node (.node .leaf 9223662308062920780 9936705933 62500000000000000000000000000000000000000000000000000000000000000000000000000000000000000000000000000 (0) 1 (0) false 3 .leaf) 9223662308065017926 55306341 1953125000000000000000000000000000000000000000000000000000000000000000000000000000000000000 (0) 1 (0) false 3 .leaf) 9223662308077600852 1 8 (0) 1 (0) false 14 (.node .leaf 9223662308100669525 1055 1 (0) 1 (0) false 19 .leaf)) 9223662308132126822 55306341 1953125000000000000000000000000000000000000000000000000000000000000000000000000000000000000 (0) 1 (0) false 3 (.node (.node (.node .leaf 9223662308144709748 1 8 (0) 1 (0) false 14 .leaf) 9223662308163584098 1 6289814000000000000000000000000000000000000000000000000000000000000000000000000000 (0) 1 (-1) false 3 .leaf) 9223666706107334732 523 125 (0) 1 (0) false 19 (.node .leaf 9223666706122014770 2529285264 625 (0) 1 (0) false 5 .leaf)))) 9223666706122014898 2529285264 625 (0) 1 (0) false 5 (.node (.node (.node (.node (.node .leaf 9223666706132500530 1 1 (0) 1 (0) false 5 .leaf) 9223666706132500658 1 1 (0) 1 (0) false 5 .leaf) 9223671104153845849 86400000000000 1 (0) 1 (0) false 0 (.node .leaf 9223671104204177486 1 100000 (0) 1 (0) false 9 .leaf)) 9223671104447447105 86400000000000 1 (0) 1 (0) false 0 (.node (.node (.node .leaf 9223671104514555969 86400000000000 1 (0) 1 (0) false 0 .leaf) 9223675502215037050 1000000000000000000 1 (0) 1 (0) false 29 .leaf) 9223675502231814241 1000000000000000000 1 (0) 1 (0) false 6 (.node .leaf 9223675502246494312 3600000000000000000000 1 (0) 1 (0) false 19 .leaf))) 9223675502246494323 1000000000000000000 1 (0) 1 (0) false 19 (.node (.node (.node (.node .leaf 9223675502292631602 10000000000000000000000000000000000000000 1 (0) 1 (0) false 5 .leaf) 9223675502292631603 1 1000000000000000000000000000000000000 (0) 1 (0) false 3 .leaf) 9223675502292631730 10000000000000000000000000000000000000000 1 (0) 1 (0) false 5 (.node .leaf 9223675502292631731 1 1000000000000000000000000000000000000 (0) 1 (0) false 3 .leaf)) 9223679900286713906 580644 625 (0) 1 (0) false 5 (.node (.node (.node .leaf 9223679900286713907 55306341 1953125000000000000000000000000000000000000000000000000000000000000000000000000000000000000000000000 (0) 1 (0) false 3 .leaf) 9223679900286714034 580644 625 (0) 1 (0) false 5 .leaf) 9223684298293379148 473176473 125000000000000000000000000000000000000000000000000000000000000000000000000000000000000000000000000000 (0) 1 (0) false 3 (.node .leaf 9223684298308059258 1000000000 1 (0) 1 (0) false 29 .leaf))))
def table20 : Table := .node table18 4398426095725 1 1000000 (0) 1 (0) false 4 table19
def table21 : Table := .node table17 4398291886375 1 1000000 (0) 1 (0) false 25 table20
def table22 : Table := .node (.node (.node (.node (.node (.node .leaf 9223684298339516520 3600000000000 1 (0) 1 (0) false 19 .leaf) 9223684298339516531 1000000000 1 (0) 1 (0) false 19 .leaf) 9223684298385653810 10000000000000000000000 1 (0) 1 (0) false 5 (.node (.node .leaf 9223684298385653811 1 1000000000000000000000000000000000000000000000000000000000000000 (0) 1 (0) false 3 .leaf) 9223684298385653938 10000000000000000000000 1 (0) 1 (0) false 5 .leaf)) 9223684298385653939 1 1000000000000000000000000000000000000000000000000000000000000000 (0) 1 (0) false 3 (.node (.node (.node .leaf 9223688696365056050 100000000 1 (0) 1 (0) false 5 .leaf) 9223688696365056178 100000000 1 (0) 1 (0) false 5 .leaf) 9223688696371347521 100 1 (0) 1 (0) false 6 (.node .leaf 9223693094413664306 16129 2500 (0) 1 (0) false 5 .leaf))) 9223693094413664434 16129 2500 (0) 1 (0) false 5 (.node (.node (.node (.node .leaf 9223697492395163731 31250 23303121 (0) 1 (0) false 20 .leaf) 9223697492395163763 31250 23303121 (0) 1 (0) false 20 .leaf) 9223701890492006470 20000 196133 (0) 1 (0) false 9 (.node .leaf 9223701890492006477 1 1 (0) 1 (0) false 9 .leaf)) 9223701890494103674 1000 1 (0) 1 (0) false 29 (.node (.node (.node .leaf 9223701890504589362 10000000000 1 (0) 1 (0) false 5 .leaf) 9223701890504589490 10000000000 1 (0) 1 (0) false 5 .leaf) 9223701890510880833 1000 1 (0) 1 (0) false 6 (.node .leaf 9223701890510880840 1 1 (0) 1 (0) false 13 .leaf)))) 9223701890510880865 1000 1 (0) 1 (0) false 6 (.node (.node (.node (.node (.node .leaf 9223701890525560904 3600000 1 (0) 1 (0) false 19 .leaf) 9223701890525560936 3600000 1 (0) 1 (0) false 19 .leaf) 9223701890525560947 1000 1 (0) 1 (0) false 19 (.node .leaf 9223701890559115373 1 1 (0) 1 (0) false 9 .leaf)) 9223701890571698226 10000000 1 (0) 1 (0) false 5 (.node (.node (.node .leaf 9223701890571698227 1 1000000000000000000000000000000000000000000000000000000000000000000000000000000000000000 (0) 1 (0) false 3 .leaf) 9223701890571698354 10000000 1 (0) 1 (0) false 5 .leaf) 9223701890571698355 1 1000000000000000000000000000000000000000000000000000000000000000000000000000000000000000 (0) 1 (0) false 3 (.node .leaf 9223706288528031827 473176473 1000000000000000000000000000000000000000000000000000000000000000000000000000000000000000000000000000000 (0) 1 (0) false 3 .leaf))) 9223706288557391939 5000000000000000 725188688661 (73479500000000000) 725188688661 (0) false 6 (.node (.node (.node (.node .leaf 9223706288576266322 157678841209680 1 (0) 1 (0) false 4 .leaf) 9223710686524211277 10000 1 (0) 1 (0) false 5 .leaf) 9223710686576640070 55306341 1953125000000000000000000000000000000000000000000000000000000000000000000000000000000000000000000 (0) 1 (0) false 3 (.node .leaf 9223710686580834387 2629800000000000 1 (0) 1 (0) false 0 .leaf)) 9223710686587125882 1000000 1 (0) 1 (0) false 29 (.node (.node (.node .leaf 9223710686589222962 647497027584 25 (0) 1 (0) false 5 .leaf) 9223710686589222990 60000000000 1 (0) 1 (0) false 0 .leaf) 9223710686589223090 647497027584 25 (0) 1 (0) false 5 (.node .leaf 9223710686603903048 25146 15625 (0) 1 (0) false 13 .leaf))))
def table23 : Table := .node (.node (.node (.node (.node (.node .leaf 9223710686608097346 1 6289814000000000000000000000000000000000000000000000000000000000000000000000000000000000 (0) 1 (-1) false 3 .leaf) 9223710686618583144 3600000000 1 (0) 1 (0) false 19 .leaf) 9223710686618583155 1000000 1 (0) 1 (0) false 19 (.node (.node .leaf 9223710686643748966 55306341 1953125000000000000000000000000000000000000000000000000000000000000000000000000000000000000000000 (0) 1 (0) false 3 .leaf) 9223710686664720434 10000000000000000 1 (0) 1 (0) false 5 .leaf)) 9223710686664720435 1 1000000000000000000000000000000000000000000000000000000000000000000000000 (0) 1 (0) false 3 (.node (.node (.node .leaf 9223710686664720562 10000000000000000 1 (0) 1 (0) false 5 .leaf) 9223710686664720563 1 1000000000000000000000000000000000000000000000000000000000000000000000000 (0) 1 (0) false 3 .leaf) 9223710686675206242 1 6289814000000000000000000000000000000000000000000000000000000000000000000000000000000000 (0) 1 (-1) false 3 (.node .leaf 9223715084570722381 1 1 (0) 1 (0) false 19 .leaf))) 9223715084570722413 1 1 (0) 1 (0) false 19 (.node (.node (.node (.node .leaf 9223719482680148045 1 1 (0) 1 (0) false 23 .leaf) 9223719482717896787 473176473 16000000000000000000000000000000000000000000000000000000000000000000000000000000000000000000000000000000 (0) 1 (0) false 3 .leaf) 9223719482747256941 1 1 (0) 1 (0) false 23 (.node .leaf 9223723880726659194 1000000000000000 1 (0) 1 (0) false 29 .leaf)) 9223723880743436385 1000000000000000 1 (0) 1 (0) false 6 (.node (.node (.node .leaf 9223723880749727817 5000000000000000 725188688661 (0) 1 (0) false 6 .leaf) 9223723880758116456 3600000000000000000 1 (0) 1 (0) false 19 .leaf) 9223723880758116467 1000000000000000 1 (0) 1 (0) false 19 (.node .leaf 9223723880804253746 10000000000000000000000000000000000 1 (0) 1 (0) false 5 .leaf)))) 9223723880804253747 1 1000000000000000000000000000000000000000000000 (0) 1 (0) false 3 (.node (.node (.node (.node (.node .leaf 9223723880804253874 10000000000000000000000000000000000 1 (0) 1 (0) false 5 .leaf) 9223723880804253875 1 1000000000000000000000000000000000000000000000 (0) 1 (0) false 3 .leaf) 9223728278720741462 5 9 (-160) 9 (0) false 1 (.node .leaf 9223728278773170298 1000000000000000000000000000000 1 (0) 1 (0) false 29 .leaf)) 9223728278789947489 1000000000000000000000000000000 1 (0) 1 (0) false 6 (.node (.node (.node .leaf 9223728278804627560 3600000000000000000000000000000000 1 (0) 1 (0) false 19 .leaf) 9223728278804627571 1000000000000000000000000000000 1 (0) 1 (0) false 19 .leaf) 9223728278850764850 10000000000000000000000000000000000000000000000000000000000000000 1 (0) 1 (0) false 5 (.node .leaf 9223728278850764851 1 1 (0) 1 (0) false 3 .leaf))) 9223728278850764978 10000000000000000000000000000000000000000000000000000000000000000 1 (0) 1 (0) false 5 (.node (.node (.node (.node .leaf 9223728278850764979 1 1 (0) 1 (0) false 3 .leaf) 9223732676811292722 158080329 625 (0) 1 (0) false 5 .leaf) 9223732676811292850 158080329 625 (0) 1 (0) false 5 (.node .leaf 9223732676813389890 1 6289814000000000000000000000000000000000000000000000000000000000000000000000000000000000000 (0) 1 (-1) false 3 .leaf)) 9223732676819681402 1000000000000000000000000000 1 (0) 1 (0) false 29 (.node (.node (.node .leaf 9223732676834361412 12573 2500 (0) 1 (0) false 4 .leaf) 9223732676836458573 1 1 (0) 1 (0) false 29 .leaf) 9223732676836458593 1000000000000000000000000000 1 (0) 1 (0) false 6 (.node .leaf 9223732676851138664 3600000000000000000000000000000 1 (0) 1 (0) false 19 .leaf))))
def table24 : Table := .node table22 9223710686603903073 1000000 1 (0) 1 (0) false 6 table23
def table25 : Table := .node (.node (.node (.node (.node (.node .leaf 9223732676897275954 10000000000000000000000000000000000000000000000000000000000 1 (0) 1 (0) false 5 .leaf) 9223732676897275955 1 1000000000 (0) 1 (0) false 3 .leaf) 9223732676897276082 10000000000000000000000000000000000000000000000000000000000 1 (0) 1 (0) false 5 (.node (.node .leaf 9223732676897276083 1 1000000000 (0) 1 (0) false 3 .leaf) 9223737074803277907 1 1 (0) 1 (0) false 36 .leaf)) 9223737074809569329 1 1 (0) 1 (0) false 29 (.node (.node (.node .leaf 9223737074855706694 55306341 1953125000000000000000000000000000000000000000000000000000000000000000000000000000000000000000000000 (0) 1 (0) false 3 .leaf) 9223737074859900995 1000000000 1 (0) 1 (0) false 0 .leaf) 9223737074864095303 9610517 80000000000 (0) 1 (0) false 10 (.node .leaf 9223737074864095311 10404660096024101 24000000000000000 (0) 1 (0) false 10 .leaf))) 9223737074864095319 10404660096024101 24000000000000000 (0) 1 (0) false 10 (.node (.node (.node (.node .leaf 9223737074876678195 1 1000000000000000000000000000000000000000000000000000000000000000000000000000000000000000000 (0) 1 (0) false 3 .leaf) 9223737074876678323 1 1000000000000000000000000000000000000000000000000000000000000000000000000000000000000000000 (0) 1 (0) false 3 .leaf) 9223737074885066829 10000 1 (0) 1 (0) false 5 (.node .leaf 9223737074891358274 9936705933 62500000000000000000000000000000000000000000000000000000000000000000000000000000000000000000000000000 (0) 1 (0) false 3 .leaf)) 9223737074931204167 9610517 80000000000 (0) 1 (0) false 10 (.node (.node (.node .leaf 9223737074931204175 10404660096024101 24000000000000000 (0) 1 (0) false 10 .leaf) 9223737074931204183 10404660096024101 24000000000000000 (0) 1 (0) false 10 .leaf) 9223737074943787059 1 1000000000000000000000000000000000000000000000000000000000000000000000000000000000000000000 (0) 1 (0) false 3 (.node .leaf 9223737074943787187 1 1000000000000000000000000000000000000000000000000000000000000000000000000000000000000000000 (0) 1 (0) false 3 .leaf)))) 9223741472902217798 55306341 1953125000000000000000000000000000000000000000000000000000000000000000000000000000000000 (0) 1 (0) false 3 (.node (.node (.node (.node (.node .leaf 9223741472906412082 16129 250000 (0) 1 (0) false 5 .leaf) 9223741472906412210 16129 250000 (0) 1 (0) false 5 .leaf) 9223741472912703538 16129 2500000000 (0) 1 (0) false 5 (.node .leaf 9223741472912703610 1000000000000 1 (0) 1 (0) false 29 .leaf)) 9223741472912703666 16129 2500000000 (0) 1 (0) false 5 (.node (.node (.node .leaf 9223741472927383630 3312235311 3125000000000000000000000000000000000000000000000000000000000000000000000000000000000000000000000000 (0) 1 (0) false 3 .leaf) 9223741472929480801 1000000000000 1 (0) 1 (0) false 6 .leaf) 9223741472944160872 3600000000000000 1 (0) 1 (0) false 19 (.node .leaf 9223741472944160883 1000000000000 1 (0) 1 (0) false 19 .leaf))) 9223741472969326694 55306341 1953125000000000000000000000000000000000000000000000000000000000000000000000000000000000 (0) 1 (0) false 3 (.node (.node (.node (.node .leaf 9223741472990298162 10000000000000000000000000000 1 (0) 1 (0) false 5 .leaf) 9223741472990298163 1 1000000000000000000000000000000000000000000000000000000 (0) 1 (0) false 3 .leaf) 9223741472990298290 10000000000000000000000000000 1 (0) 1 (0) false 5 (.node .leaf 9223741472990298291 1 1000000000000000000000000000000000000000000000000000000 (0) 1 (0) false 3 .leaf)) 9223741472994492526 3312235311 3125000000000000000000000000000000000000000000000000000000000000000000000000000000000000000000000000 (0) 1 (0) false 3 (.node (.node (.node .leaf 9223741473000783970 1 6289814000000000000000000000000000000000000000000000000000000000000000000000000 (0) 1 (-1) false 3 .leaf) 9223750268942811201 31250 23303121 (0) 1 (0) false 20 .leaf) 9223750268942811206 1 1 (0) 1 (0) false 27 (.node .leaf 9223750268953296961 1 1 (0) 1 (0) false 23 .leaf))))
def table26 : Table := .node (.node (.node (.node (.node (.node .leaf 9223754666989322323 1 1 (0) 1 (0) false 19 .leaf) 9223754666989322344 3600 1 (0) 1 (0) false 19 .leaf) 9223754666989322355 1 1 (0) 1 (0) false 19 (.node .leaf 9223754666999808065 1 1 (0) 1 (0) false 21 .leaf)) 9223754666999808086 1 1 (0) 1 (0) false 22 (.node (.node (.node .leaf 9223763463136870450 5225796 625 (0) 1 (0) false 5 .leaf) 9223763463136870578 5225796 625 (0) 1 (0) false 5 .leaf) 9223763463145259130 1000000000000000000000000 1 (0) 1 (0) false 29 (.node .leaf 9223763463162036321 1000000000000000000000000 1 (0) 1 (0) false 6 .leaf))) 9223763463176716392 3600000000000000000000000000 1 (0) 1 (0) false 19 (.node (.node (.node (.node .leaf 9223763463176716403 1000000000000000000000000 1 (0) 1 (0) false 19 .leaf) 9223763463222853682 10000000000000000000000000000000000000000000000000000 1 (0) 1 (0) false 5 .leaf) 9223763463222853683 1 1000000000000000000 (0) 1 (0) false 3 (.node .leaf 9223763463222853810 10000000000000000000000000000000000000000000000000000 1 (0) 1 (0) false 5 .leaf)) 9223763463222853811 1 1000000000000000000 (0) 1 (0) false 3 (.node (.node (.node .leaf 9223767861191770234 1000000000000000000000 1 (0) 1 (0) false 29 .leaf) 9223767861208547425 1000000000000000000000 1 (0) 1 (0) false 6 .leaf) 9223767861223227496 3600000000000000000000000 1 (0) 1 (0) false 19 (.node .leaf 9223767861223227507 1000000000000000000000 1 (0) 1 (0) false 19 .leaf)))) 9223767861269364786 10000000000000000000000000000000000000000000000 1 (0) 1 (0) false 5 (.node (.node (.node (.node (.node .leaf 9223767861269364787 1 1000000000000000000000000000 (0) 1 (0) false 3 .leaf) 9223767861269364914 10000000000000000000000000000000000000000000000 1 (0) 1 (0) false 5 .leaf) 9223767861269364915 1 1000000000000000000000000000 (0) 1 (0) false 3 (.node .leaf 9223798647517347962 1 1000000000000000000 (0) 1 (0) false 29 .leaf)) 9223798647534125153 1 1000000000000000000 (0) 1 (0) false 6 (.node (.node (.node .leaf 9223798647548805224 9 2500000000000000 (0) 1 (0) false 19 .leaf) 9223798647548805235 1 1000000000000000000 (0) 1 (0) false 19 .leaf) 9223798647594942514 1 100000000000000000000000000000000 (0) 1 (0) false 5 (.node .leaf 9223798647594942515 1 1000000000000000000000000000000000000000000000000000000000000000000000000000000000000000000000000000000000000000000000000000000000000000000000000 (0) 1 (0) false 3 .leaf))) 9223798647594942642 1 100000000000000000000000000000000 (0) 1 (0) false 5 (.node (.node (.node (.node .leaf 9223798647594942643 1 1000000000000000000000000000000000000000000000000000000000000000000000000000000000000000000000000000000000000000000000000000000000000000000000000 (0) 1 (0) false 3 .leaf) 9223798647601234025 10404660096024101 24000000000000000 (0) 1 (0) true 10 .leaf) 9223798647605428325 1000000 1 (0) 1 (0) false 5 (.node .leaf 9223798647609622637 101325 1 (0) 1 (0) false 6 .leaf)) 9223798647871766639 31557600000000000 1 (0) 1 (0) false 0 (.node (.node (.node .leaf 9223803045616287858 100000 1 (0) 1 (0) false 6 .leaf) 9223803045618385004 9936705933 62500000000000000000000000000000000000000000000000000000000000000000000000000000000000000000000000000 (0) 1 (0) false 3 .leaf) 9223803045633065076 1 8 (0) 1 (0) false 14 (.node .leaf 9223803045656133749 1055 1 (0) 1 (0) false 19 .leaf))))
def table27 : Table := .node table25 9223754666989322312 3600 1 (0) 1 (0) false 19 table26
def table28 : Table := .node table24 9223732676851138675 1000000000000000000000000000 1 (0) 1 (0) false 19 table27
def table29 : Table := .node table21 9223684298324836449 1000000000 1 (0) 1 (0) false 6 table28
def table30 : Table := .node table14 4398275100783 2629800000000000 1 (0) 1 (0) false 0 table29
def table31 : Table := .node (.node (.node (.node (.node (.node .leaf 9223807443627147361 1 100 (0) 1 (0) false 6 .leaf) 9223807443641827432 36 1 (0) 1 (0) false 19 .leaf) 9223807443641827443 1 100 (0) 1 (0) false 19 (.node (.node .leaf 9223807443662798956 523 125 (0) 1 (0) false 19 .leaf) 9223807443677478962 2529285264 625 (0) 1 (0) false 5 .leaf)) 9223807443677478963 1987543976517 244140625000000000000000000000000000000000000000000000000000000000000000000000000000000000000000000 (0) 1 (0) false 3 (.node (.node (.node .leaf 9223807443677479090 2529285264 625 (0) 1 (0) false 5 .leaf) 9223807443677479091 1987543976517 244140625000000000000000000000000000000000000000000000000000000000000000000000000000000000000000000 (0) 1 (0) false 3 .leaf) 9223807443687964722 1 1 (0) 1 (0) false 5 (.node .leaf 9223807443687964723 1 1000000000000000000000000000000000000000000000000000000000000000000000000000000000000000000000000 (0) 1 (0) false 3 .leaf))) 9223807443687964850 1 1 (0) 1 (0) false 5 (.node (.node (.node (.node .leaf 9223807443687964851 1 1000000000000000000000000000000000000000000000000000000000000000000000000000000000000000000000000 (0) 1 (0) false 3 .leaf) 9223807443708936308 3312235311 62500000000000000000000000000000000000000000000000000000000000000000000000000000000000000000000000000 (0) 1 (0) false 3 .leaf) 9223811841656881274 1 10 (0) 1 (0) false 29 (.node .leaf 9223811841673658465 1 10 (0) 1 (0) false 6 .leaf)) 9223811841688338536 360 1 (0) 1 (0) false 19 (.node (.node (.node .leaf 9223811841688338547 1 10 (0) 1 (0) false 19 .leaf) 9223811841709310017 10 1 (0) 1 (0) false 22 .leaf) 9223811841709310020 9869233 100000000000000 (0) 1 (0) false 5 (.node .leaf 9223811841709310022 50 9 (-160) 9 (0) false 1 .leaf)))) 9223811841709310024 10 1 (0) 1 (0) false 28 (.node (.node (.node (.node (.node .leaf 9223811841709310033 10 1 (0) 1 (0) false 27 .leaf) 9223811841709310038 10 1 (0) 1 (0) false 21 .leaf) 9223811841709310039 312500 23303121 (0) 1 (0) false 20 (.node .leaf 9223811841709310055 6145149 589081000000000000000000000000000000000000000000000000000000000000000000000000000000000000000000000000 (0) 1 (0) false 3 .leaf)) 9223811841709310060 1 100000000000000000000000000000000000000000000000000000000000000000000000000000000000000000000 (0) 1 (0) false 3 (.node (.node (.node .leaf 9223811841709310061 10 1 (0) 1 (0) false 4 .leaf) 9223811841709310067 10000000000 1 (0) 1 (0) false 0 .leaf) 9223811841709310073 86400000000000 1 (0) 1 (0) false 0 (.node .leaf 9223811841709310889 10 1 (0) 1 (0) false 23 .leaf))) 9223811841709318439 10 1 (0) 1 (0) false 25 (.node (.node (.node (.node .leaf 9223811841734475826 100 1 (0) 1 (0) false 5 .leaf) 9223811841734475827 1 1000000000000000000000000000000000000000000000000000000000000000000000000000000000000000000000 (0) 1 (0) false 3 .leaf) 9223811841734475954 100 1 (0) 1 (0) false 5 (.node .leaf 9223811841734475955 1 1000000000000000000000000000000000000000000000000000000000000000000000000000000000000000000000 (0) 1 (0) false 3 .leaf)) 9223811841755447412 11945966866083 7363512500000000000000000000000000000000000000000000000000000000000000000000000000000000000000000000000000000 (0) 1 (0) false 3 (.node (.node (.node .leaf 9223811841759641710 1 100000 (0) 1 (0) false 9 .leaf) 9223811842002911329 86400000000000 1 (0) 1 (0) false 0 .leaf) 9223820637749903482 1 1000000000000000 (0) 1 (0) false 29 (.node .leaf 9223820637766680673 1 1000000000000000 (0) 1 (0) false 6 .leaf))))
def table32 : Table := .node (.node (.node (.node (.node (.node .leaf 9223820637781360755 1 1000000000000000 (0) 1 (0) false 19 .leaf) 9223820637827498034 1 100000000000000000000000000 (0) 1 (0) false 5 .leaf) 9223820637827498035 1 1000000000000000000000000000000000000000000000000000000000000000000000000000000000000000000000000000000000000000000000000000000000000000 (0) 1 (0) false 3 (.node (.node .leaf 9223820637827498162 1 100000000000000000000000000 (0) 1 (0) false 5 .leaf) 9223820637827498163 1 1000000000000000000000000000000000000000000000000000000000000000000000000000000000000000000000000000000000000000000000000000000000000000 (0) 1 (0) false 3 .leaf)) 9223820637842178098 580644 625 (0) 1 (0) false 5 (.node (.node (.node .leaf 9223820637842178099 55306341 1953125000000000000000000000000000000000000000000000000000000000000000000000000000000000000000000000 (0) 1 (0) false 3 .leaf) 9223820637842178226 580644 625 (0) 1 (0) false 5 .leaf) 9223820637842178227 55306341 1953125000000000000000000000000000000000000000000000000000000000000000000000000000000000000000000000 (0) 1 (0) false 3 (.node .leaf 9223820637844275314 25146 125 (0) 1 (0) false 4 .leaf))) 9223825035848843372 473176473 125000000000000000000000000000000000000000000000000000000000000000000000000000000000000000000000000000 (0) 1 (0) false 3 (.node (.node (.node (.node .leaf 9223829433842925690 100 1 (0) 1 (0) false 29 .leaf) 9223829433859702881 100 1 (0) 1 (0) false 6 .leaf) 9223829433874382952 360000 1 (0) 1 (0) false 19 (.node .leaf 9223829433874382963 100 1 (0) 1 (0) false 19 .leaf)) 9223829433920520242 100000000 1 (0) 1 (0) false 5 (.node (.node (.node .leaf 9223829433920520243 1 1000000000000000000000000000000000000000000000000000000000000000000000000000000000000 (0) 1 (0) false 3 .leaf) 9223829433920520370 100000000 1 (0) 1 (0) false 5 .leaf) 9223829433920520371 1 1000000000000000000000000000000000000000000000000000000000000000000000000000000000000 (0) 1 (0) false 3 (.node .leaf 9223833831969128498 16129 2500 (0) 1 (0) false 5 .leaf)))) 9223833831969128499 2048383 125000000000000000000000000000000000000000000000000000000000000000000000000000000000000000000000000000 (0) 1 (0) false 3 (.node (.node (.node (.node (.node .leaf 9223833831969128626 16129 2500 (0) 1 (0) false 5 .leaf) 9223833831969128627 2048383 125000000000000000000000000000000000000000000000000000000000000000000000000000000000000000000000000000 (0) 1 (0) false 3 .leaf) 9223842627982459002 1000 1 (0) 1 (0) false 29 (.node .leaf 9223842627999236193 1000 1 (0) 1 (0) false 6 .leaf)) 9223842628013916264 3600000 1 (0) 1 (0) false 19 (.node (.node (.node .leaf 9223842628013916275 1000 1 (0) 1 (0) false 19 .leaf) 9223842628047470694 20000 196133 (0) 1 (0) false 9 .leaf) 9223842628047470701 1 1 (0) 1 (0) false 9 (.node .leaf 9223842628060053554 10000000000 1 (0) 1 (0) false 5 .leaf))) 9223842628060053555 1 1000000000000000000000000000000000000000000000000000000000000000000000000000000000 (0) 1 (0) false 3 (.node (.node (.node (.node .leaf 9223842628060053682 10000000000 1 (0) 1 (0) false 5 .leaf) 9223842628060053683 1 1000000000000000000000000000000000000000000000000000000000000000000000000000000000 (0) 1 (0) false 3 .leaf) 9223842628066345057 1000 1 (0) 1 (0) false 6 (.node .leaf 9223842628066345064 1 1 (0) 1 (0) false 13 .leaf)) 9223842628081025128 3600000 1 (0) 1 (0) false 19 (.node (.node (.node .leaf 9223847026083496051 473176473 1000000000000000000000000000000000000000000000000000000000000000000000000000000000000000000000000000000 (0) 1 (0) false 3 .leaf) 9223847026089787489 603504 125 (0) 1 (0) false 4 .leaf) 9223847026112856163 5000000000000000 725188688661 (73479500000000000) 725188688661 (0) false 6 (.node .leaf 9223847026131730546 157678841209680 1 (0) 1 (0) false 4 .leaf))))
def table33 : Table := .node table31 9223820637781360744 9 2500000000000 (0) 1 (0) false 19 table32
def table34 : Table := .node (.node (.node (.node (.node (.node .leaf 9223851424075481210 1 1000 (0) 1 (0) false 29 .leaf) 9223851424092258401 1 1000 (0) 1 (0) false 6 .leaf) 9223851424106938472 18 5 (0) 1 (0) false 19 (.node (.node .leaf 9223851424106938483 1 1000 (0) 1 (0) false 19 .leaf) 9223851424136298611 2629800000000000 1 (0) 1 (0) false 0 .leaf)) 9223851424144687154 647497027584 25 (0) 1 (0) false 5 (.node (.node (.node .leaf 9223851424144687155 1987543976517 476837158203125000000000000000000000000000000000000000000000000000000000000000000000000000000 (0) 1 (0) false 3 .leaf) 9223851424144687214 60000000000 1 (0) 1 (0) false 0 .leaf) 9223851424144687282 647497027584 25 (0) 1 (0) false 5 (.node .leaf 9223851424144687283 1987543976517 476837158203125000000000000000000000000000000000000000000000000000000000000000000000000000000 (0) 1 (0) false 3 .leaf))) 9223851424153075762 1 100 (0) 1 (0) false 5 (.node (.node (.node (.node .leaf 9223851424153075763 1 1000000000000000000000000000000000000000000000000000000000000000000000000000000000000000000000000000 (0) 1 (0) false 3 .leaf) 9223851424153075890 1 100 (0) 1 (0) false 5 .leaf) 9223851424153075891 1 1000000000000000000000000000000000000000000000000000000000000000000000000000000000000000000000000000 (0) 1 (0) false 3 (.node .leaf 9223851424159367272 25146 15625 (0) 1 (0) false 13 .leaf)) 9223855822059077741 1 1 (0) 1 (0) false 19 (.node (.node (.node .leaf 9223855822121992314 1 1000000000 (0) 1 (0) false 29 .leaf) 9223855822138769505 1 1000000000 (0) 1 (0) false 6 .leaf) 9223855822153449576 9 2500000 (0) 1 (0) false 19 (.node .leaf 9223855822153449587 1 1000000000 (0) 1 (0) false 19 .leaf)))) 9223855822199586866 1 100000000000000 (0) 1 (0) false 5 (.node (.node (.node (.node (.node .leaf 9223855822199586867 1 1000000000000000000000000000000000000000000000000000000000000000000000000000000000000000000000000000000000000000000000 (0) 1 (0) false 3 .leaf) 9223855822199586921 1852 1 (0) 1 (0) false 4 .leaf) 9223855822199586994 1 100000000000000 (0) 1 (0) false 5 (.node .leaf 9223855822199586995 1 1000000000000000000000000000000000000000000000000000000000000000000000000000000000000000000000000000000000000000000000 (0) 1 (0) false 3 .leaf)) 9223860220235612269 1 1 (0) 1 (0) false 23 (.node (.node (.node .leaf 9223860220273361011 473176473 16000000000000000000000000000000000000000000000000000000000000000000000000000000000000000000000000000000 (0) 1 (0) false 3 .leaf) 9223864618215014522 1 1000000000000 (0) 1 (0) false 29 .leaf) 9223864618231791713 1 1000000000000 (0) 1 (0) false 6 (.node .leaf 9223864618246471784 9 2500000000 (0) 1 (0) false 19 .leaf))) 9223864618246471795 1 1000000000000 (0) 1 (0) false 19 (.node (.node (.node (.node .leaf 9223864618292609074 1 100000000000000000000 (0) 1 (0) false 5 .leaf) 9223864618292609075 1 1000000000000000000000000000000000000000000000000000000000000000000000000000000000000000000000000000000000000000000000000000000 (0) 1 (0) false 3 .leaf) 9223864618292609202 1 100000000000000000000 (0) 1 (0) false 5 (.node .leaf 9223864618292609203 1 1000000000000000000000000000000000000000000000000000000000000000000000000000000000000000000000000000000000000000000000000000000 (0) 1 (0) false 3 .leaf)) 9223864618305192041 5000000000000000 725188688661 (0) 1 (0) false 6 (.node (.node (.node .leaf 9223864618313580660 11945966866083 7363512500000000000000000000000000000000000000000000000000000000000000000000000000000000000000000000000000000 (0) 1 (0) false 3 .leaf) 9223869016261525626 1 1000000000000000000000000000000 (0) 1 (0) false 29 .leaf) 9223869016278302817 1 1000000000000000000000000000000 (0) 1 (0) false 6 (.node .leaf 9223869016292982888 9 2500000000000000000000000000 (0) 1 (0) false 19 .leaf))))
def table35 : Table := .node (.node (.node (.node (.node (.node .leaf 9223869016339120178 1 100000000000000000000000000000000000000000000000000000000 (0) 1 (0) false 5 .leaf) 9223869016339120179 1 1000000000000000000000000000000000000000000000000000000000000000000000000000000000000000000000000000000000000000000000000000000000000000000000000000000000000000000000000000000000000 (0) 1 (0) false 3 .leaf) 9223869016339120306 1 100000000000000000000000000000000000000000000000000000000 (0) 1 (0) false 5 (.node .leaf 9223869016339120307 1 1000000000000000000000000000000000000000000000000000000000000000000000000000000000000000000000000000000000000000000000000000000000000000000000000000000000000000000000000000000000000 (0) 1 (0) false 3 .leaf)) 9223869016349606004 3312235311 250000000000000000000000000000000000000000000000000000000000000000000000000000000000000000000000000000 (0) 1 (0) false 3 (.node (.node (.node .leaf 9223873414308036730 1 1000000000000000000000000000 (0) 1 (0) false 29 .leaf) 9223873414324813921 1 1000000000000000000000000000 (0) 1 (0) false 6 .leaf) 9223873414339493992 9 2500000000000000000000000 (0) 1 (0) false 19 (.node .leaf 9223873414339494003 1 1000000000000000000000000000 (0) 1 (0) false 19 .leaf))) 9223873414366756914 158080329 625 (0) 1 (0) false 5 (.node (.node (.node (.node .leaf 9223873414366756915 1 1 (0) 1 (0) false 3 .leaf) 9223873414366757042 158080329 625 (0) 1 (0) false 5 .leaf) 9223873414366757043 1 1 (0) 1 (0) false 3 (.node .leaf 9223873414368854114 1 6289814000000000000000000000000000000000000000000000000000000000000000000000000000000000000 (0) 1 (-1) false 3 .leaf)) 9223873414385631282 1 100000000000000000000000000000000000000000000000000 (0) 1 (0) false 5 (.node (.node (.node .leaf 9223873414385631283 1 1000000000000000000000000000000000000000000000000000000000000000000000000000000000000000000000000000000000000000000000000000000000000000000000000000000000000000000000000000 (0) 1 (0) false 3 .leaf) 9223873414385631410 1 100000000000000000000000000000000000000000000000000 (0) 1 (0) false 5 .leaf) 9223873414385631411 1 1000000000000000000000000000000000000000000000000000000000000000000000000000000000000000000000000000000000000000000000000000000000000000000000000000000000000000000000000000 (0) 1 (0) false 3 (.node .leaf 9223873414389825636 12573 2500 (0) 1 (0) false 4 .leaf)))) 9223873414391922797 1 1 (0) 1 (0) false 29 (.node (.node (.node (.node (.node .leaf 9223877812291633267 1 1 (0) 1 (0) false 36 .leaf) 9223877812297924657 1 1 (0) 1 (0) false 29 .leaf) 9223877812411170915 1 1000000000000000000000000000000000000000000000000000000000000000000000000000000000000000000000000 (0) 1 (0) false 3 (.node .leaf 9223877812411170918 55306341 1953125000000000000000000000000000000000000000000000000000000000000000000000000000000000000000000000 (0) 1 (0) false 3 .leaf)) 9223877812411170925 1 1000000000000000000000000000000000000000000000000000000000000000000000000000000000000000000 (0) 1 (0) false 3 (.node (.node (.node .leaf 9223877812415365219 1000000000 1 (0) 1 (0) false 0 .leaf) 9223877812419559527 9610517 80000000000 (0) 1 (0) false 10 .leaf) 9223877812419559535 10404660096024101 24000000000000000 (0) 1 (0) false 10 (.node .leaf 9223877812419559543 10404660096024101 24000000000000000 (0) 1 (0) false 10 .leaf))) 9223877812432142387 1 1000000000000000000000000000000000000000000000000000000000000000000000000000000000000000000 (0) 1 (0) false 3 (.node (.node (.node (.node .leaf 9223877812432142515 1 1000000000000000000000000000000000000000000000000000000000000000000000000000000000000000000 (0) 1 (0) false 3 .leaf) 9223877812440531053 10000 1 (0) 1 (0) false 5 .leaf) 9223877812446822498 9936705933 62500000000000000000000000000000000000000000000000000000000000000000000000000000000000000000000000000 (0) 1 (0) false 3 (.node .leaf 9223882210461876274 16129 250000 (0) 1 (0) false 5 .leaf)) 9223882210461876275 2048383 125000000000000000000000000000000000000000000000000000000000000000000000000000000000000000000000000000000 (0) 1 (0) false 3 (.node (.node (.node .leaf 9223882210461876402 16129 250000 (0) 1 (0) false 5 .leaf) 9223882210461876403 2048383 125000000000000000000000000000000000000000000000000000000000000000000000000000000000000000000000000000000 (0) 1 (0) false 3 .leaf) 9223882210468167730 16129 2500000000 (0) 1 (0) false 5 (.node .leaf 9223882210468167731 2048383 125000000000000000000000000000000000000000000000000000000000000000000000000000000000000000000000000000000000000 (0) 1 (0) false 3 .leaf))))
def table36 : Table := .node table34 9223869016292982899 1 1000000000000000000000000000000 (0) 1 (0) false 19 table35
def table37 : Table := .node table33 9223851424012566637 10000 1 (0) 1 (0) false 5 table36
def table38 : Table := .node (.node (.node (.node (.node (.node .leaf 9223882210468167859 2048383 125000000000000000000000000000000000000000000000000000000000000000000000000000000000000000000000000000000000000 (0) 1 (0) false 3 .leaf) 9223882210482847854 3312235311 3125000000000000000000000000000000000000000000000000000000000000000000000000000000000000000000000000 (0) 1 (0) false 3 .leaf) 9223886608447570042 1 1000000 (0) 1 (0) false 29 (.node (.node .leaf 9223886608464347233 1 1000000 (0) 1 (0) false 6 .leaf) 9223886608479027304 9 2500 (0) 1 (0) false 19 .leaf)) 9223886608479027315 1 1000000 (0) 1 (0) false 19 (.node (.node (.node .leaf 9223886608525164594 1 100000000 (0) 1 (0) false 5 .leaf) 9223886608525164595 1 1000000000000000000000000000000000000000000000000000000000000000000000000000000000000000000000000000000000000 (0) 1 (0) false 3 .leaf) 9223886608525164722 1 100000000 (0) 1 (0) false 5 (.node .leaf 9223886608525164723 1 1000000000000000000000000000000000000000000000000000000000000000000000000000000000000000000000000000000000000 (0) 1 (0) false 3 .leaf))) 9223895404477677672 3600 1 (0) 1 (0) false 19 (.node (.node (.node (.node .leaf 9223895404477677683 1 1 (0) 1 (0) false 19 .leaf) 9223904200633614458 1 1000000000000000000000000 (0) 1 (0) false 29 .leaf) 9223904200650391649 1 1000000000000000000000000 (0) 1 (0) false 6 (.node .leaf 9223904200665071720 9 2500000000000000000000 (0) 1 (0) false 19 .leaf)) 9223904200665071731 1 1000000000000000000000000 (0) 1 (0) false 19 (.node (.node (.node .leaf 9223904200692334642 5225796 625 (0) 1 (0) false 5 .leaf) 9223904200692334643 1493271207 1953125000000000000000000000000000000000000000000000000000000000000000000000000000000000000000000000 (0) 1 (0) false 3 .leaf) 9223904200692334770 5225796 625 (0) 1 (0) false 5 (.node .leaf 9223904200692334771 1493271207 1953125000000000000000000000000000000000000000000000000000000000000000000000000000000000000000000000 (0) 1 (0) false 3 .leaf)))) 9223904200711209010 1 100000000000000000000000000000000000000000000 (0) 1 (0) false 5 (.node (.node (.node (.node (.node .leaf 9223904200711209011 1 1000000000000000000000000000000000000000000000000000000000000000000000000000000000000000000000000000000000000000000000000000000000000000000000000000000000000000000 (0) 1 (0) false 3 .leaf) 9223904200711209138 1 100000000000000000000000000000000000000000000 (0) 1 (0) false 5 .leaf) 9223904200711209139 1 1000000000000000000000000000000000000000000000000000000000000000000000000000000000000000000000000000000000000000000000000000000000000000000000000000000000000000000 (0) 1 (0) false 3 (.node .leaf 9223908598680125562 1 1000000000000000000000 (0) 1 (0) false 29 .leaf)) 9223908598696902753 1 1000000000000000000000 (0) 1 (0) false 6 (.node (.node (.node .leaf 9223908598711582824 9 2500000000000000000 (0) 1 (0) false 19 .leaf) 9223908598711582835 1 1000000000000000000000 (0) 1 (0) false 19 .leaf) 9223908598757720114 1 100000000000000000000000000000000000000 (0) 1 (0) false 5 (.node .leaf 9223908598757720115 1 1000000000000000000000000000000000000000000000000000000000000000000000000000000000000000000000000000000000000000000000000000000000000000000000000000000000 (0) 1 (0) false 3 .leaf))) 9223908598757720242 1 100000000000000000000000000000000000000 (0) 1 (0) false 5 (.node (.node (.node (.node .leaf 9223908598757720243 1 1000000000000000000000000000000000000000000000000000000000000000000000000000000000000000000000000000000000000000000000000000000000000000000000000000000000 (0) 1 (0) false 3 .leaf) 9224168083424280698 1 1000000 (0) 1 (0) false 29 .leaf) 9224168083441057889 1 1000000 (0) 1 (0) false 6 (.node .leaf 9224168083455737960 9 2500 (0) 1 (0) false 19 .leaf)) 9224168083455737971 1 1000000 (0) 1 (0) false 19 (.node (.node (.node .leaf 9224168083501875250 1 100000000 (0) 1 (0) false 5 .leaf) 9224168083501875251 1 1000000000000000000000000000000000000000000000000000000000000000000000000000000000000000000000000000000000000 (0) 1 (0) false 3 .leaf) 9224168083501875378 1 100000000 (0) 1 (0) false 5 (.node .leaf 9224168083501875379 1 1000000000000000000000000000000000000000000000000000000000000000000000000000000000000000000000000000000000000 (0) 1 (0) false 3 .leaf))))
def table39 : Table := .node (.node (.node (.node (.node (.node .leaf 19343237389163266614231150 127 50000 (0) 1 (0) false 4 .leaf) 19343246612535303349469232 1 100 (0) 1 (0) false 32 .leaf) 19343412633311131643936837 5058570528 125 (0) 1 (0) false 5 (.node (.node .leaf 19343412633385898424139841 101325 1 (0) 1 (0) false 6 .leaf) 19343412633935654242222163 31557600000000000 1 (0) 1 (0) false 0 .leaf)) 19343421856674372405690433 100000 1 (0) 1 (0) false 6 (.node (.node (.node .leaf 19343421856674372405690439 100000 1 (101325) 1 (0) false 6 .leaf) 19343421856674372405690451 100000 1 (101325) 1 (0) false 6 .leaf) 19343421856678770439618628 1 1 (0) 1 (0) false 12 (.node .leaf 19343421856753537211433030 55306341 1953125000000000000000000000000000000000000000000000000000000000000000000000000000000000000 (0) 1 (0) false 3 .leaf))) 19343421856753537247084610 9936705933 62500000000000000000000000000000000000000000000000000000000000000000000000000000000000000000 (0) 1 (0) false 3 (.node (.node (.node (.node .leaf 19343421856779925526151237 1 1 (0) 1 (0) false 14 .leaf) 19343421856819507974111340 9936705933 62500000000000000000000000000000000000000000000000000000000000000000000000000000000000000000 (0) 1 (0) false 3 .leaf) 19343421856837100197904435 55306341 1953125000000000000000000000000000000000000000000000000000000000000000000000000000000000000 (0) 1 (0) false 3 (.node .leaf 19343421856837100197904563 55306341 1953125000000000000000000000000000000000000000000000000000000000000000000000000000000000000 (0) 1 (0) false 3 .leaf)) 19343421856889876724580450 1 6289814000000000000000000000000000000000000000000000000000000000000000000000000000 (0) 1 (-1) false 3 (.node (.node (.node .leaf 19343421856894274766897254 55306341 1953125000000000000000000000000000000000000000000000000000000000000000000000000000000000000 (0) 1 (0) false 3 .leaf) 19343421856894274802548834 9936705933 62500000000000000000000000000000000000000000000000000000000000000000000000000000000000000000 (0) 1 (0) false 3 .leaf) 19343421856920663081615461 1 1 (0) 1 (0) false 14 (.node .leaf 19343440303418446104756274 1000000 1 (0) 1 (0) false 5 .leaf)))) 19343440303418446104756402 1000000 1 (0) 1 (0) false 5 (.node (.node (.node (.node (.node .leaf 19343440303418446119436357 1 1 (0) 1 (0) false 34 .leaf) 19343440303418446129922131 86400000000000 1 (0) 1 (0) false 0 .leaf) 19343440303436038278217795 1 1 (0) 1 (0) false 1 (.node .leaf 19343440303436038278217798 5 9 (-160) 9 (0) false 1 .leaf)) 19343440303436038278217803 1 1 (-5463) 20 (0) false 1 (.node (.node (.node .leaf 19343440303436038278217810 5 9 (-5463) 20 (0) false 1 .leaf) 19343440303493212870279245 473176473 256000000000000000000000000000000000000000000000000000000000000000000000000000000000000000000000000000000 (0) 1 (0) false 3 .leaf) 19343440303523999223119941 1 100000 (0) 1 (0) false 9 (.node .leaf 19343440303559183674900581 1 1 (0) 1 (0) false 34 .leaf))) 19343440303664736778584165 1 100000 (0) 1 (0) false 9 (.node (.node (.node (.node .leaf 19343440304034172591145043 86400000000000 1 (0) 1 (0) false 0 .leaf) 19343449526869647863840819 1 1000000000000000000000000000000000000000000000000000000000000000000000000 (0) 1 (0) false 3 .leaf) 19343449526869647863840947 1 1000000000000000000000000000000000000000000000000000000000000000000000000 (0) 1 (0) false 3 (.node .leaf 19343449526935618536341618 100000000000000000000000 1 (0) 1 (0) false 6 .leaf)) 19343449526935618553118836 125000000000000000 1 (0) 1 (0) false 14 (.node (.node (.node .leaf 19343449527010385352196147 1 1000000000000000000000000000000000000000000000000000000000000000000000000 (0) 1 (0) false 3 .leaf) 19343449527010385352196275 1 1000000000000000000000000000000000000000000000000000000000000000000000000 (0) 1 (0) false 3 .leaf) 19343458750180111983575124 381 1250 (0) 1 (0) false 4 (.node .leaf 19343458750224092469657684 381 1250 (0) 1 (0) false 4 .leaf))))
def table40 : Table := .node table38 19343237389163266547122254 127 50000 (0) 1 (0) false 4 table39
def table41 : Table := .node (.node (.node (.node (.node (.node .leaf 19343458750250480755015858 10117141056 25 (0) 1 (0) false 5 .leaf) 19343467973455391810912323 10404660096024101 24000000000000000 (0) 1 (0) false 10 .leaf) 19343467973534556666986579 473176473 125000000000000000000000000000000000000000000000000000000000000000000000000000000000000000000000000000 (0) 1 (0) false 3 (.node (.node .leaf 19343467973569741039075404 473176473 4000000000000000000000000000000000000000000000000000000000000000000000000000000000000000000000000000000 (0) 1 (0) false 3 .leaf) 19343467973609323434606669 6145149 5890810000000000000000000000000000000000000000000000000000000000000000000000000000000000000000000000000 (0) 1 (0) false 3 .leaf)) 19343467973613721506283571 1 1000000000000000000000000000000000000000000000000000000000000000000000000000000000 (0) 1 (0) false 3 (.node (.node (.node .leaf 19343467973613721506283699 1 1000000000000000000000000000000000000000000000000000000000000000000000000000000000 (0) 1 (0) false 3 .leaf) 19343467973613721573392435 1 1000000000000000000000000000000000000000000000000000000000000000000000000000000000 (0) 1 (0) false 3 .leaf) 19343467973613721573392563 1 1000000000000000000000000000000000000000000000000000000000000000000000000000000000 (0) 1 (0) false 3 (.node .leaf 19343467973679692245893234 100000000000000 1 (0) 1 (0) false 6 .leaf))) 19343467973679692262670452 125000000 1 (0) 1 (0) false 14 (.node (.node (.node (.node .leaf 19343467973754459061747763 1 1000000000000000000000000000000000000000000000000000000000000000000000000000000000 (0) 1 (0) false 3 .leaf) 19343467973754459061747891 1 1000000000000000000000000000000000000000000000000000000000000000000000000000000000 (0) 1 (0) false 3 .leaf) 19343477196968166191792210 3600000000000 1 (0) 1 (0) false 0 (.node .leaf 19343486420335804962308168 127 5000 (0) 1 (0) false 4 .leaf)) 19343504867101868925386803 1 1000000000000000000000000000000000000000000000000000000000000000000000000000000000000000 (0) 1 (0) false 3 (.node (.node (.node .leaf 19343504867101868925386931 1 1000000000000000000000000000000000000000000000000000000000000000000000000000000000000000 (0) 1 (0) false 3 .leaf) 19343504867101868992495667 1 1000000000000000000000000000000000000000000000000000000000000000000000000000000000000000 (0) 1 (0) false 3 .leaf) 19343504867101868992495795 1 1000000000000000000000000000000000000000000000000000000000000000000000000000000000000000 (0) 1 (0) false 3 (.node .leaf 19343504867119461038030920 3600000 1 (0) 1 (0) false 19 .leaf)))) 19343504867167839664996466 100000000 1 (0) 1 (0) false 6 (.node (.node (.node (.node (.node .leaf 19343504867167839681773684 125 1 (0) 1 (0) false 14 .leaf) 19343504867242606480850995 1 1000000000000000000000000000000000000000000000000000000000000000000000000000000000000000 (0) 1 (0) false 3 .leaf) 19343504867242606480851123 1 1000000000000000000000000000000000000000000000000000000000000000000000000000000000000000 (0) 1 (0) false 3 (.node .leaf 19343514090412333103841330 5827473248256 25 (0) 1 (0) false 5 .leaf)) 19343514090412333103841458 5827473248256 25 (0) 1 (0) false 5 (.node (.node (.node .leaf 19343514090460711619657793 5000000000000000 725188688661 (0) 1 (0) false 6 .leaf) 19343514090460711619657805 5000000000000000 725188688661 (73479500000000000) 725188688661 (0) false 6 .leaf) 19343523313705205083668548 1 1 (0) 1 (0) false 12 (.node .leaf 19343523313705205083668557 10000 1 (0) 1 (0) false 5 .leaf))) 19343523313771175821181004 9936705933 62500000000000000000000000000000000000000000000000000000000000000000000000000000000000000000000000 (0) 1 (0) false 3 (.node (.node (.node (.node .leaf 19343523313801962167730245 201168 125 (0) 1 (0) false 4 .leaf) 19343523313801962171924563 60000000000 1 (0) 1 (0) false 0 .leaf) 19343523313819554334900294 55306341 1953125000000000000000000000000000000000000000000000000000000000000000000000000000000000000000 (0) 1 (0) false 3 (.node .leaf 19343523313819554345386055 20265 152 (0) 1 (0) false 6 .leaf)) 19343523313819554366357570 1 6289814000000000000000000000000000000000000000000000000000000000000000000000000000000 (0) 1 (-1) false 3 (.node (.node (.node .leaf 19343523313819554402009190 55306341 1953125000000000000000000000000000000000000000000000000000000000000000000000000000000000000000 (0) 1 (0) false 3 .leaf) 19343523313819554433466466 1 6289814000000000000000000000000000000000000000000000000000000000000000000000000000000 (0) 1 (-1) false 3 .leaf) 19343523313845942613966918 55306341 1953125000000000000000000000000000000000000000000000000000000000000000000000000000000000000000000 (0) 1 (0) false 3 (.node .leaf 19343523313845942634938419 1 1000000000000000000000000000000000000000000000000000000000000000000000000000000000000 (0) 1 (0) false 3 .leaf))))
def table42 : Table := .node (.node (.node (.node (.node (.node .leaf 19343523313845942649618498 9936705933 62500000000000000000000000000000000000000000000000000000000000000000000000000000000000000000000000 (0) 1 (0) false 3 .leaf) 19343523313845942702047283 1 1000000000000000000000000000000000000000000000000000000000000000000000000000000000000 (0) 1 (0) false 3 .leaf) 19343523313845942702047411 1 1000000000000000000000000000000000000000000000000000000000000000000000000000000000000 (0) 1 (0) false 3 (.node .leaf 19343523313911913374548082 100000000000 1 (0) 1 (0) false 6 .leaf)) 19343523313911913376645228 9936705933 62500000000000000000000000000000000000000000000000000000000000000000000000000000000000000000000000 (0) 1 (0) false 3 (.node (.node (.node .leaf 19343523313911913391325300 125000 1 (0) 1 (0) false 14 .leaf) 19343523313929505600438323 55306341 1953125000000000000000000000000000000000000000000000000000000000000000000000000000000000000000000 (0) 1 (0) false 3 .leaf) 19343523313929505600438451 55306341 1953125000000000000000000000000000000000000000000000000000000000000000000000000000000000000000000 (0) 1 (0) false 3 (.node .leaf 19343523313982282127114338 1 6289814000000000000000000000000000000000000000000000000000000000000000000000000000000000 (0) 1 (-1) false 3 .leaf))) 19343523313986680169431142 55306341 1953125000000000000000000000000000000000000000000000000000000000000000000000000000000000000000000 (0) 1 (0) false 3 (.node (.node (.node (.node .leaf 19343523313986680190402611 1 1000000000000000000000000000000000000000000000000000000000000000000000000000000000000 (0) 1 (0) false 3 .leaf) 19343523313986680190402739 1 1000000000000000000000000000000000000000000000000000000000000000000000000000000000000 (0) 1 (0) false 3 .leaf) 19343523313986680205082722 9936705933 62500000000000000000000000000000000000000000000000000000000000000000000000000000000000000000000000 (0) 1 (0) false 3 (.node .leaf 19343532537200387305766981 1 1 (0) 1 (0) false 32 .leaf)) 19343532537341124861231205 1 1 (0) 1 (0) false 32 (.node (.node (.node .leaf 19343550983882888288665683 10 1 (0) 1 (0) false 16 .leaf) 19343550983918072736251988 473176473 1000000000000000000000000000000000000000000000000000000000000000000000000000000000000000000000000000000 (0) 1 (0) false 3 .leaf) 19343550983962053190877249 5000000000000000 725188688661 (0) 1 (0) false 6 (.node .leaf 19343550983962053190877255 5000000000000000 725188688661 (73479500000000000) 725188688661 (0) false 6 .leaf)))) 19343550983962053266374707 1 1000000000000000000000000000000000000000000000000000000000000000000000000000 (0) 1 (0) false 3 (.node (.node (.node (.node (.node .leaf 19343550983962053266374835 1 1000000000000000000000000000000000000000000000000000000000000000000000000000 (0) 1 (0) false 3 .leaf) 19343550984023625777021043 10 1 (0) 1 (0) false 16 .leaf) 19343550984028023938875506 100000000000000000000 1 (0) 1 (0) false 6 (.node .leaf 19343550984028023955652724 125000000000000 1 (0) 1 (0) false 14 .leaf)) 19343550984102790754730035 1 1000000000000000000000000000000000000000000000000000000000000000000000000000 (0) 1 (0) false 3 (.node (.node (.node .leaf 19343550984102790754730163 1 1000000000000000000000000000000000000000000000000000000000000000000000000000 (0) 1 (0) false 3 .leaf) 19343560207334090121150515 1 1000000000000000000000000000000000000000000000000000000000000 (0) 1 (0) false 3 .leaf) 19343560207334090121150643 1 1000000000000000000000000000000000000000000000000000000000000 (0) 1 (0) false 3 (.node .leaf 19343560207400060793651314 100000000000000000000000000000000000 1 (0) 1 (0) false 6 .leaf))) 19343560207474827609505843 1 1000000000000000000000000000000000000000000000000000000000000 (0) 1 (0) false 3 (.node (.node (.node (.node .leaf 19343560207474827609505971 1 1000000000000000000000000000000000000000000000000000000000000 (0) 1 (0) false 3 .leaf) 19343569430644554257662003 1 1000000000000000000000000000000000000000000000000000000000000000000000000000000000000000000 (0) 1 (-1) false 3 .leaf) 19343569430644554257662131 1 1000000000000000000000000000000000000000000000000000000000000000000000000000000000000000000 (0) 1 (-1) false 3 (.node .leaf 19343569430644554324770867 1 1000000000000000000000000000000000000000000000000000000000000000000000000000000000000000000 (0) 1 (-1) false 3 .leaf)) 19343569430644554324770995 1 1000000000000000000000000000000000000000000000000000000000000000000000000000000000000000000 (0) 1 (-1) false 3 (.node (.node (.node .leaf 19343569430706126975926323 1 1000000000000000000000000000000000000000000000000000000000000000 (0) 1 (0) false 3 .leaf) 19343569430706126975926451 1 1000000000000000000000000000000000000000000000000000000000000000 (0) 1 (0) false 3 .leaf) 19343569430772097648427122 100000000000000000000000000000000 1 (0) 1 (0) false 6 (.node .leaf 19343569430785291813126195 1 1000000000000000000000000000000000000000000000000000000000000000000000000000000000000000000 (0) 1 (-1) false 3 .leaf))))
def table43 : Table := .node table41 19343523313845942634938547 1 1000000000000000000000000000000000000000000000000000000000000000000000000000000000000 (0) 1 (0) false 3 table42
def table44 : Table := .node table40 19343458750250480755015730 10117141056 25 (0) 1 (0) false 5 table43
def table45 : Table := .node table37 9223882210468167858 16129 2500000000 (0) 1 (0) false 5 table44
def table46 : Table := .node (.node (.node (.node (.node (.node .leaf 19343569430846864464281779 1 1000000000000000000000000000000000000000000000000000000000000000 (0) 1 (0) false 3 .leaf) 19343578654007795004735556 1 1 (0) 1 (0) false 12 .leaf) 19343578654051775430000708 1 1 (0) 1 (0) false 12 (.node (.node .leaf 19343578654069367576199245 10000 1 (0) 1 (0) false 5 .leaf) 19343578654069367649599560 2529285264 625 (0) 1 (0) false 5 .leaf)) 19343578654069367649599565 1 1 (0) 1 (0) false 5 (.node (.node (.node .leaf 19343578654069367655891028 580644 625 (0) 1 (0) false 5 .leaf) 19343578654069367660085325 100000000 1 (0) 1 (0) false 5 .leaf) 19343578654069367662182478 16129 2500 (0) 1 (0) false 5 (.node .leaf 19343578654069367666376781 10000000000 1 (0) 1 (0) false 5 .leaf))) 19343578654069367681056836 158080329 625 (0) 1 (0) false 5 (.node (.node (.node (.node .leaf 19343578654069367685251141 16129 250000 (0) 1 (0) false 5 .leaf) 19343578654069367685251144 16129 2500000000 (0) 1 (0) false 5 .leaf) 19343578654069367695736900 5225796 625 (0) 1 (0) false 5 (.node .leaf 19343578654082561787035716 1 1 (0) 1 (0) false 12 .leaf)) 19343578654082561810104371 1 1000000000000000000000000000000000000000000000000000000000000000000000000000000000000000000 (0) 1 (0) false 3 (.node (.node (.node .leaf 19343578654082561810104499 1 1000000000000000000000000000000 (0) 1 (0) false 3 .leaf) 19343578654082561877213235 1 1000000000000000000000000000000000000000000000000000000000000000000000000000000000000000000 (0) 1 (0) false 3 .leaf) 19343578654082561877213363 1 1000000000000000000000000000000 (0) 1 (0) false 3 (.node .leaf 19343587877401822110941269 127 5000000 (0) 1 (0) false 4 .leaf)))) 19343587877432608434421843 3312235311 3125000000000000000000000000000000000000000000000000000000000000000000000000000000000000000000000000 (0) 1 (0) false 3 (.node (.node (.node (.node (.node .leaf 19343587877432608442810450 20265 152 (0) 1 (0) false 6 .leaf) 19343587877450200597397574 55306341 1953125000000000000000000000000000000000000000000000000000000000000000000000000000000000 (0) 1 (0) false 3 .leaf) 19343587877450200633049154 9936705933 62500000000000000000000000000000000000000000000000000000000000000000000000000000000000000 (0) 1 (0) false 3 (.node .leaf 19343587877450200685477939 1 1000000000000000000000000000000000000000000000000000000000000000000000000000000 (0) 1 (0) false 3 .leaf)) 19343587877450200685478067 1 1000000000000000000000000000000000000000000000000000000000000000000000000000000 (0) 1 (0) false 3 (.node (.node (.node .leaf 19343587877516171357978738 100000000000000000 1 (0) 1 (0) false 6 .leaf) 19343587877516171360075884 9936705933 62500000000000000000000000000000000000000000000000000000000000000000000000000000000000000 (0) 1 (0) false 3 .leaf) 19343587877516171374755956 125000000000 1 (0) 1 (0) false 14 (.node .leaf 19343587877533763583868979 55306341 1953125000000000000000000000000000000000000000000000000000000000000000000000000000000000 (0) 1 (0) false 3 .leaf))) 19343587877533763583869107 55306341 1953125000000000000000000000000000000000000000000000000000000000000000000000000000000000 (0) 1 (0) false 3 (.node (.node (.node (.node .leaf 19343587877573345998274674 20265 152 (0) 1 (0) false 6 .leaf) 19343587877586540110544994 1 6289814000000000000000000000000000000000000000000000000000000000000000000000000 (0) 1 (-1) false 3 .leaf) 19343587877590938152861798 55306341 1953125000000000000000000000000000000000000000000000000000000000000000000000000000000000 (0) 1 (0) false 3 (.node .leaf 19343587877590938173833267 1 1000000000000000000000000000000000000000000000000000000000000000000000000000000 (0) 1 (0) false 3 .leaf)) 19343587877590938173833395 1 1000000000000000000000000000000000000000000000000000000000000000000000000000000 (0) 1 (0) false 3 (.node (.node (.node .leaf 19343587877590938188513378 9936705933 62500000000000000000000000000000000000000000000000000000000000000000000000000000000000000 (0) 1 (0) false 3 .leaf) 19343597100822237464756304 1 1 (0) 1 (0) false 11 .leaf) 19343606324176682139779156 1 1 (0) 1 (0) false 21 (.node .leaf 19343606324317419695243380 1 1 (0) 1 (0) false 21 .leaf))))
def table47 : Table := .node (.node (.node (.node (.node (.node .leaf 19343615547504738514763851 604800000000000 1 (0) 1 (0) false 0 .leaf) 19343615547517932608159816 31250 23303121 (0) 1 (0) false 20 .leaf) 19343615547517932608159831 3600000000000 1 (0) 1 (0) false 0 (.node (.node .leaf 19343615547627883915640948 31250 23303121 (0) 1 (0) false 20 .leaf) 19343615547658670096515159 3600000000000 1 (0) 1 (0) false 0 .leaf)) 19343615547658670096515176 31250 23303121 (0) 1 (0) false 20 (.node (.node (.node .leaf 19343633994231220065534020 1143 1250 (0) 1 (0) false 4 .leaf) 19343633994248812215926866 31557600000000000 1 (0) 1 (0) false 0 .leaf) 19343633994310384959356979 1 1000000000000000000000000000000000000000000000000000000000000000000 (0) 1 (0) false 3 (.node .leaf 19343633994310384959357107 1 1000000000000000000000000000000000000000000000000000000000000000000 (0) 1 (0) false 3 .leaf))) 19343633994336773196480601 31557600000000000 1 (0) 1 (0) false 0 (.node (.node (.node (.node .leaf 19343633994376355631857778 100000000000000000000000000000 1 (0) 1 (0) false 6 .leaf) 19343633994376355648634996 125000000000000000000000 1 (0) 1 (0) false 14 .leaf) 19343633994451122447712307 1 1000000000000000000000000000000000000000000000000000000000000000000 (0) 1 (0) false 3 (.node .leaf 19343633994451122447712435 1 1000000000000000000000000000000000000000000000000000000000000000000 (0) 1 (0) false 3 .leaf)) 19343643217682421814132787 1 1000000000000000000000000000000000000000000000000000000000000000000000 (0) 1 (0) false 3 (.node (.node (.node .leaf 19343643217682421814132915 1 1000000000000000000000000000000000000000000000000000000000000000000000 (0) 1 (0) false 3 .leaf) 19343643217748392486633586 100000000000000000000000000 1 (0) 1 (0) false 6 .leaf) 19343643217748392503410804 125000000000000000000 1 (0) 1 (0) false 14 (.node .leaf 19343643217823159302488115 1 1000000000000000000000000000000000000000000000000000000000000000000000 (0) 1 (0) false 3 .leaf)))) 19343643217823159302488243 1 1000000000000000000000000000000000000000000000000000000000000000000000 (0) 1 (0) false 3 (.node (.node (.node (.node (.node .leaf 19343707781286679797563443 1 1000000000000000000000000000000000000000000000000000000000000000000000000000000000000000000000000000000000000 (0) 1 (0) false 3 .leaf) 19343707781286679797563571 1 1000000000000000000000000000000000000000000000000000000000000000000000000000000000000000000000000000000000000 (0) 1 (0) false 3 .leaf) 19343707781352650470064242 1 10000000000000 (0) 1 (0) false 6 (.node .leaf 19343707781357048552226917 5058570528 125 (0) 1 (0) false 5 .leaf)) 19343707781427417285918771 1 1000000000000000000000000000000000000000000000000000000000000000000000000000000000000000000000000000000000000 (0) 1 (0) false 3 (.node (.node (.node .leaf 19343707781427417285918899 1 1000000000000000000000000000000000000000000000000000000000000000000000000000000000000000000000000000000000000 (0) 1 (0) false 3 .leaf) 19343707781431815332429921 101325 1 (0) 1 (0) false 6 .leaf) 19343707781981571150512243 31557600000000000 1 (0) 1 (0) false 0 (.node .leaf 19343717004720289313980513 100000 1 (0) 1 (0) false 6 .leaf))) 19343717004720289313980519 100000 1 (101325) 1 (0) false 6 (.node (.node (.node (.node .leaf 19343717004720289313980531 100000 1 (101325) 1 (0) false 6 .leaf) 19343717004724687347908708 1 1 (0) 1 (0) false 12 .leaf) 19343717004825842434441317 1 1 (0) 1 (0) false 14 (.node .leaf 19343726228030753507115059 1 100000000000000000000000000000000000000000000000000000000000000000000000000000000000000000000 (0) 1 (0) false 3 .leaf)) 19343726228030753507115187 1 100000000000000000000000000000000000000000000000000000000000000000000000000000000000000000000 (0) 1 (0) false 3 (.node (.node (.node .leaf 19343726228096724179615858 1000 1 (0) 1 (0) false 6 .leaf) 19343726228171490995470387 1 100000000000000000000000000000000000000000000000000000000000000000000000000000000000000000000 (0) 1 (0) false 3 .leaf) 19343726228171490995470515 1 100000000000000000000000000000000000000000000000000000000000000000000000000000000000000000000 (0) 1 (0) false 3 (.node .leaf 19343735451402790361890867 1 10000000000000000000000000000000000000000000000000000000000000000000000000000000000000000000 (0) 1 (0) false 3 .leaf))))
def table48 : Table := .node table46 19343615547487146360176724 31250 23303121 (0) 1 (0) false 20 table47
def table49 : Table := .node (.node (.node (.node (.node (.node .leaf 19343735451464362935451770 10 1 (0) 1 (0) false 29 .leaf) 19343735451464362952228961 10 1 (0) 1 (0) false 6 .leaf) 19343735451464362966909032 36000 1 (0) 1 (0) false 19 (.node (.node .leaf 19343735451464362966909043 10 1 (0) 1 (0) false 19 .leaf) 19343735451464363013046322 1000000 1 (0) 1 (0) false 5 .leaf)) 19343735451464363013046323 1 1000000000000000000000000000000000000000000000000000000000000000000000000000000000000000 (0) 1 (0) false 3 (.node (.node (.node .leaf 19343735451464363013046450 1000000 1 (0) 1 (0) false 5 .leaf) 19343735451464363013046451 1 1000000000000000000000000000000000000000000000000000000000000000000000000000000000000000 (0) 1 (0) false 3 .leaf) 19343735451464363027726437 1 1 (0) 1 (0) false 34 (.node .leaf 19343735451464363038212211 86400000000000 1 (0) 1 (0) false 0 .leaf))) 19343735451468761034391666 10000 1 (0) 1 (0) false 6 (.node (.node (.node (.node .leaf 19343735451481955186507843 1 1 (0) 1 (0) false 1 .leaf) 19343735451481955186507846 5 9 (-160) 9 (0) false 1 .leaf) 19343735451481955186507851 1 1 (-5463) 20 (0) false 1 (.node .leaf 19343735451481955186507858 5 9 (-5463) 20 (0) false 1 .leaf)) 19343735451481955186507875 1 1 (0) 1 (0) false 1 (.node (.node (.node .leaf 19343735451481955186507878 5 9 (-160) 9 (0) false 1 .leaf) 19343735451481955186507883 1 1 (-5463) 20 (0) false 1 .leaf) 19343735451481955186507890 5 9 (-5463) 20 (0) false 1 (.node .leaf 19343735451539129778569325 473176473 256000000000000000000000000000000000000000000000000000000000000000000000000000000000000000000000000000000 (0) 1 (0) false 3 .leaf)))) 19343735451543527850246195 1 10000000000000000000000000000000000000000000000000000000000000000000000000000000000000000000 (0) 1 (0) false 3 (.node (.node (.node (.node (.node .leaf 19343735451543527850246323 1 10000000000000000000000000000000000000000000000000000000000000000000000000000000000000000000 (0) 1 (0) false 3 .leaf) 19343735451569916131410021 1 100000 (0) 1 (0) false 9 .leaf) 19343735452080089499435123 86400000000000 1 (0) 1 (0) false 0 (.node .leaf 19343753898146864071442483 1 1000000000000000000000000000000000000000000000000000000000000000000000000000000000000000000000000000000000 (0) 1 (0) false 3 .leaf)) 19343753898146864071442611 1 1000000000000000000000000000000000000000000000000000000000000000000000000000000000000000000000000000000000 (0) 1 (0) false 3 (.node (.node (.node .leaf 19343753898212834743943282 1 10000000000 (0) 1 (0) false 6 .leaf) 19343753898226028891865204 381 1250 (0) 1 (0) false 4 .leaf) 19343753898270009377947764 381 1250 (0) 1 (0) false 4 (.node .leaf 19343753898287601559797811 1 1000000000000000000000000000000000000000000000000000000000000000000000000000000000000000000000000000000000 (0) 1 (0) false 3 .leaf))) 19343753898287601559797939 1 1000000000000000000000000000000000000000000000000000000000000000000000000000000000000000000000000000000000 (0) 1 (0) false 3 (.node (.node (.node (.node .leaf 19343753898296397663305778 10117141056 25 (0) 1 (0) false 5 .leaf) 19343753898296397663305779 1987543976517 244140625000000000000000000000000000000000000000000000000000000000000000000000000000000000000000 (0) 1 (0) false 3 .leaf) 19343753898296397663305906 10117141056 25 (0) 1 (0) false 5 (.node .leaf 19343753898296397663305907 1987543976517 244140625000000000000000000000000000000000000000000000000000000000000000000000000000000000000000 (0) 1 (0) false 3 .leaf)) 19343763121360571230847075 10404660096024101 24000000000000000 (0) 1 (0) false 10 (.node (.node (.node .leaf 19343763121580473575276659 473176473 125000000000000000000000000000000000000000000000000000000000000000000000000000000000000000000000000000 (0) 1 (0) false 3 .leaf) 19343763121615657899130955 454609 3200000000000000000000000000000000000000000000000000000000000000000000000000000000000000000000000000 (0) 1 (0) false 3 .leaf) 19343763121615657899130963 473176473 4000000000000000000000000000000000000000000000000000000000000000000000000000000000000000000000000000000 (0) 1 (0) false 3 (.node .leaf 19343763121615657947365484 473176473 4000000000000000000000000000000000000000000000000000000000000000000000000000000000000000000000000000000 (0) 1 (0) false 3 .leaf))))
def table50 : Table := .node (.node (.node (.node (.node (.node .leaf 19343772344890937780994099 1 10000000000000000000000000000000000000000000000000000000000000000000000000000000000000000 (0) 1 (0) false 3 .leaf) 19343772344890937780994227 1 10000000000000000000000000000000000000000000000000000000000000000000000000000000000000000 (0) 1 (0) false 3 .leaf) 19343772344956908453494898 10000000 1 (0) 1 (0) false 6 (.node .leaf 19343772345014083100082290 3600000000000 1 (0) 1 (0) false 0 .leaf)) 19343772345031675269349427 1 10000000000000000000000000000000000000000000000000000000000000000000000000000000000000000 (0) 1 (0) false 3 (.node (.node (.node .leaf 19343772345031675269349555 1 10000000000000000000000000000000000000000000000000000000000000000000000000000000000000000 (0) 1 (0) false 3 .leaf) 19343781568381721870598248 127 5000 (0) 1 (0) false 4 .leaf) 19343800015007048345321523 1 1000000000000000000000000000000000000000000000000000000000000000000000000000000000000000 (0) 1 (0) false 3 (.node .leaf 19343800015007048345321651 1 1000000000000000000000000000000000000000000000000000000000000000000000000000000000000000 (0) 1 (0) false 3 .leaf))) 19343800015024640390856808 3600000 1 (0) 1 (0) false 19 (.node (.node (.node (.node .leaf 19343800015073019017822322 100000000 1 (0) 1 (0) false 6 .leaf) 19343800015073019034599540 125 1 (0) 1 (0) false 14 .leaf) 19343800015147785833676851 1 1000000000000000000000000000000000000000000000000000000000000000000000000000000000000000 (0) 1 (0) false 3 (.node .leaf 19343800015147785833676979 1 1000000000000000000000000000000000000000000000000000000000000000000000000000000000000000 (0) 1 (0) false 3 .leaf)) 19343800015165377879212136 3600000 1 (0) 1 (0) false 19 (.node (.node (.node .leaf 19343809238458250012131378 5827473248256 25 (0) 1 (0) false 5 .leaf) 19343809238458250012131379 53663687365959 476837158203125000000000000000000000000000000000000000000000000000000000000000000000000000000 (0) 1 (0) false 3 .leaf) 19343809238458250012131506 5827473248256 25 (0) 1 (0) false 5 (.node .leaf 19343809238458250012131507 53663687365959 476837158203125000000000000000000000000000000000000000000000000000000000000000000000000000000 (0) 1 (0) false 3 .leaf)))) 19343809238506628527947873 5000000000000000 725188688661 (0) 1 (0) false 6 (.node (.node (.node (.node (.node .leaf 19343809238506628527947885 5000000000000000 725188688661 (73479500000000000) 725188688661 (0) false 6 .leaf) 19343818461570802147917874 1 1000000000000000000000000000000000000000000000000000000000000000000000000000000000000000000 (0) 1 (0) false 3 .leaf) 19343818461570802147918002 1 1000000000000000000000000000000000000000000000000000000000000000000000000000000000000000000 (0) 1 (0) false 3 (.node .leaf 19343818461592792393056306 1 1 (0) 1 (0) false 31 .leaf)) 19343818461605986379497581 1 1000000000000000000000000000000000000000000000000000000000000000000000000000000000000000000 (0) 1 (0) false 3 (.node (.node (.node .leaf 19343818461610384436494436 1 1 (0) 1 (0) false 12 .leaf) 19343818461610384436494445 10000 1 (0) 1 (0) false 5 .leaf) 19343818461751122054873139 1 1000000000000000000000000000000000000000000000000000000000000000000000000000000000000000000000 (0) 1 (0) false 3 (.node .leaf 19343818461751122054873267 1 1000000000000000000000000000000000000000000000000000000000000000000000000000000000000000000000 (0) 1 (0) false 3 .leaf))) 19343818461817092727373938 100 1 (0) 1 (0) false 6 (.node (.node (.node (.node .leaf 19343818461847879076020325 201168 125 (0) 1 (0) false 4 .leaf) 19343818461847879080214643 60000000000 1 (0) 1 (0) false 0 .leaf) 19343818461865471186567271 20265 152 (0) 1 (0) false 6 (.node .leaf 19343818461891859543228467 1 1000000000000000000000000000000000000000000000000000000000000000000000000000000000000000000000 (0) 1 (0) false 3 .leaf)) 19343818461891859543228595 1 1000000000000000000000000000000000000000000000000000000000000000000000000000000000000000000000 (0) 1 (0) false 3 (.node (.node (.node .leaf 19343818462168936332918893 1 1000000000000000000000000000000000000000000000000000000000000000000000000000000000000000000 (0) 1 (0) false 3 .leaf) 19343827685123158909648947 1 1000000000000000000000000000000000000000000000000000000000000000000000000000000000000000000000000000 (0) 1 (0) false 3 .leaf) 19343827685123158909649075 1 1000000000000000000000000000000000000000000000000000000000000000000000000000000000000000000000000000 (0) 1 (0) false 3 (.node .leaf 19343827685189129582149746 1 10000 (0) 1 (0) false 6 .leaf))))
def table51 : Table := .node table49 19343763121655240342896749 6145149 5890810000000000000000000000000000000000000000000000000000000000000000000000000000000000000000000000000 (0) 1 (0) false 3 table50
def table52 : Table := .node table48 19343735451402790361890995 1 10000000000000000000000000000000000000000000000000000000000000000000000000000000000000000000 (0) 1 (0) false 3 table51
def table53 : Table := .node (.node (.node (.node (.node (.node .leaf 19343827685263896398004275 1 1000000000000000000000000000000000000000000000000000000000000000000000000000000000000000000000000000 (0) 1 (0) false 3 .leaf) 19343827685263896398004403 1 1000000000000000000000000000000000000000000000000000000000000000000000000000000000000000000000000000 (0) 1 (0) false 3 .leaf) 19343836908666719528026187 454609 16000000000000000000000000000000000000000000000000000000000000000000000000000000000000000000000000000 (0) 1 (0) false 3 (.node (.node .leaf 19343836908666719528026195 473176473 16000000000000000000000000000000000000000000000000000000000000000000000000000000000000000000000000000000 (0) 1 (0) false 3 .leaf) 19343846131867232619200563 1 1000000000000000000000000000000000000000000000000000000000000000000000000000000000000000000000000000000 (0) 1 (0) false 3 .leaf)) 19343846131867232619200691 1 1000000000000000000000000000000000000000000000000000000000000000000000000000000000000000000000000000000 (0) 1 (0) false 3 (.node (.node (.node .leaf 19343846131933203291701362 1 10000000 (0) 1 (0) false 6 .leaf) 19343846131946397466886243 1 100 (0) 1 (0) false 32 .leaf) 19343846131963989644542068 473176473 1000000000000000000000000000000000000000000000000000000000000000000000000000000000000000000000000000000 (0) 1 (0) false 3 (.node .leaf 19343846132007970099167329 5000000000000000 725188688661 (0) 1 (0) false 6 .leaf))) 19343846132007970099167335 5000000000000000 725188688661 (73479500000000000) 725188688661 (0) false 6 (.node (.node (.node (.node .leaf 19343846132007970107555891 1 1000000000000000000000000000000000000000000000000000000000000000000000000000000000000000000000000000000 (0) 1 (0) false 3 .leaf) 19343846132007970107556019 1 1000000000000000000000000000000000000000000000000000000000000000000000000000000000000000000000000000000 (0) 1 (0) false 3 .leaf) 19343846132012368103735371 454609 800000000000000000000000000000000000000000000000000000000000000000000000000000000000000000000000000 (0) 1 (0) false 3 (.node .leaf 19343846132012368103735379 473176473 1000000000000000000000000000000000000000000000000000000000000000000000000000000000000000000000000000000 (0) 1 (0) false 3 .leaf)) 19343855355239269473976371 1 1000000000000000000000000000000000000000000000000000000000000000000000000000000000000000000000000000000000000000000000000 (0) 1 (0) false 3 (.node (.node (.node .leaf 19343855355239269473976499 1 1000000000000000000000000000000000000000000000000000000000000000000000000000000000000000000000000000000000000000000000000 (0) 1 (0) false 3 .leaf) 19343855355305240146477170 1 10000000000000000000000000 (0) 1 (0) false 6 .leaf) 19343855355380006962331699 1 1000000000000000000000000000000000000000000000000000000000000000000000000000000000000000000000000000000000000000000000000 (0) 1 (0) false 3 (.node .leaf 19343855355380006962331827 1 1000000000000000000000000000000000000000000000000000000000000000000000000000000000000000000000000000000000000000000000000 (0) 1 (0) false 3 .leaf)))) 19343855355384404958511179 454609 400000000000000000000000000000000000000000000000000000000000000000000000000000000000000000000000000 (0) 1 (0) false 3 (.node (.node (.node (.node (.node .leaf 19343855355384404958511187 473176473 500000000000000000000000000000000000000000000000000000000000000000000000000000000000000000000000000000 (0) 1 (0) false 3 .leaf) 19343864578611306328752179 1 1000000000000000000000000000000000000000000000000000000000000000000000000000000000000000000000000000000000000000000000 (0) 1 (0) false 3 .leaf) 19343864578611306328752307 1 1000000000000000000000000000000000000000000000000000000000000000000000000000000000000000000000000000000000000000000000 (0) 1 (0) false 3 (.node .leaf 19343864578677277001252978 1 10000000000000000000000 (0) 1 (0) false 6 .leaf)) 19343864578690471144980579 1 1 (0) 1 (0) false 3 (.node (.node (.node .leaf 19343864578690471165952051 1 1000000000000000000000000000000000000000000000000000000000000000000000000000000000000000000 (0) 1 (-1) false 3 .leaf) 19343864578690471165952179 1 1000000000000000000000000000000000000000000000000000000000000000000000000000000000000000000 (0) 1 (-1) false 3 .leaf) 19343864578752043817107507 1 1000000000000000000000000000000000000000000000000000000000000000000000000000000000000000000000000000000000000000000000 (0) 1 (0) false 3 (.node .leaf 19343864578752043817107635 1 1000000000000000000000000000000000000000000000000000000000000000000000000000000000000000000000000000000000000000000000 (0) 1 (0) false 3 .leaf))) 19343873802053711913025636 1 1 (0) 1 (0) false 12 (.node (.node (.node (.node .leaf 19343873802053711927705651 1 1000000000000000000000000000000000000000000000000000000000000000000000000000000000000000000000000 (0) 1 (0) false 3 .leaf) 19343873802053711927705779 1 1000000000000000000000000000000000000000000000000000000000000000000000000000000000000000000000000 (0) 1 (0) false 3 .leaf) 19343873802097692271181924 1 1 (0) 1 (0) false 12 (.node .leaf 19343873802115284417380461 10000 1 (0) 1 (0) false 5 .leaf)) 19343873802115284557889640 2529285264 625 (0) 1 (0) false 5 (.node (.node (.node .leaf 19343873802115284557889645 1 1 (0) 1 (0) false 5 .leaf) 19343873802115284564181108 580644 625 (0) 1 (0) false 5 .leaf) 19343873802115284568375405 100000000 1 (0) 1 (0) false 5 (.node .leaf 19343873802115284570472558 16129 2500 (0) 1 (0) false 5 .leaf))))
def table54 : Table := .node (.node (.node (.node (.node (.node .leaf 19343873802115284589346916 158080329 625 (0) 1 (0) false 5 .leaf) 19343873802115284593541221 16129 250000 (0) 1 (0) false 5 .leaf) 19343873802115284593541224 16129 2500000000 (0) 1 (0) false 5 (.node (.node .leaf 19343873802115284604026980 5225796 625 (0) 1 (0) false 5 .leaf) 19343873802128478695325796 1 1 (0) 1 (0) false 12 .leaf)) 19343873802128478695325804 9936705933 62500000000000000000000000000000000000000000000000000000000000000000000000000000000000000000000000000 (0) 1 (0) false 3 (.node (.node (.node .leaf 19343873802128478695325807 9936705933 62500000000000000000000000000000000000000000000000000000000000000000000000000000000000000000000000000 (0) 1 (0) false 3 .leaf) 19343873802128478695325815 9936705933 62500000000000000000000000000000000000000000000000000000000000000000000000000000000000000000000000000 (0) 1 (0) false 3 .leaf) 19343873802128478718394419 1 1000000000000000000000000000000000000000000000000000000000000000000000000000000000000000000 (0) 1 (0) false 3 (.node .leaf 19343873802128478718394547 1 1000000000000000000000000000000 (0) 1 (0) false 3 .leaf))) 19343883025447739019231349 127 5000000 (0) 1 (0) false 4 (.node (.node (.node (.node .leaf 19343883025478525342711923 3312235311 3125000000000000000000000000000000000000000000000000000000000000000000000000000000000000000000000000 (0) 1 (0) false 3 .leaf) 19343892248727416893079603 1 1000000000000000000000000000000000000000000000000000000000000000000000000000000000000000000000000 (0) 1 (0) false 3 .leaf) 19343892248727416893079731 1 1000000000000000000000000000000000000000000000000000000000000000000000000000000000000000000000000 (0) 1 (0) false 3 (.node .leaf 19343892248793387565580402 1 10 (0) 1 (0) false 6 .leaf)) 19343892248868154373046384 1 1 (0) 1 (0) false 11 (.node (.node (.node .leaf 19343892248868154381434931 1 1000000000000000000000000000000000000000000000000000000000000000000000000000000000000000000000000 (0) 1 (0) false 3 .leaf) 19343892248868154381435059 1 1000000000000000000000000000000000000000000000000000000000000000000000000000000000000000000000000 (0) 1 (0) false 3 .leaf) 19343910695550655423053931 604800000000000 1 (0) 1 (0) false 0 (.node .leaf 19343929142215564312182835 1 1000000000000000000000000000000000000000000000000000000000000000000000000000000000000000000000000000000000000000000 (0) 1 (0) false 3 .leaf)))) 19343929142215564312182963 1 1000000000000000000000000000000000000000000000000000000000000000000000000000000000000000000000000000000000000000000 (0) 1 (0) false 3 (.node (.node (.node (.node (.node .leaf 19343929142277136973824100 1143 1250 (0) 1 (0) false 4 .leaf) 19343929142281534984683634 1 10000000000000000000 (0) 1 (0) false 6 .leaf) 19343929142294729124216946 31557600000000000 1 (0) 1 (0) false 0 (.node .leaf 19343929142356301800538163 1 1000000000000000000000000000000000000000000000000000000000000000000000000000000000000000000000000000000000000000000 (0) 1 (0) false 3 .leaf)) 19343929142356301800538291 1 1000000000000000000000000000000000000000000000000000000000000000000000000000000000000000000000000000000000000000000 (0) 1 (0) false 3 (.node (.node (.node .leaf 19343929142382690104770681 31557600000000000 1 (0) 1 (0) false 0 .leaf) 19343938365587601166958643 1 1000000000000000000000000000000000000000000000000000000000000000000000000000000000000000000000000000000000000000 (0) 1 (0) false 3 .leaf) 19343938365587601166958771 1 1000000000000000000000000000000000000000000000000000000000000000000000000000000000000000000000000000000000000000 (0) 1 (0) false 3 (.node .leaf 19343938365653571839459442 1 10000000000000000 (0) 1 (0) false 6 .leaf))) 19343938365728338655313971 1 1000000000000000000000000000000000000000000000000000000000000000000000000000000000000000000000000000000000000000 (0) 1 (0) false 3 (.node (.node (.node (.node .leaf 19343938365728338655314099 1 1000000000000000000000000000000000000000000000000000000000000000000000000000000000000000000000000000000000000000 (0) 1 (0) false 3 .leaf) 19344482544537775598731315 1 1000000000000000000000000000000000000000000000000000000000000000000000000000000000000000000000000 (0) 1 (0) false 3 .leaf) 19344482544537775598731443 1 1000000000000000000000000000000000000000000000000000000000000000000000000000000000000000000000000 (0) 1 (0) false 3 (.node .leaf 19344482544603746271232114 1 10 (0) 1 (0) false 6 .leaf)) 19344482544678513078698096 1 1 (0) 1 (0) false 11 (.node (.node (.node .leaf 19344482544678513087086643 1 1000000000000000000000000000000000000000000000000000000000000000000000000000000000000000000000000 (0) 1 (0) false 3 .leaf) 19344482544678513087086771 1 1000000000000000000000000000000000000000000000000000000000000000000000000000000000000000000000000 (0) 1 (0) false 3 .leaf) 19351335509961158621659216 1 1 (0) 1 (0) false 11 (.node .leaf 40565747662757080212300428738638 127 50000 (0) 1 (0) false 4 .leaf))))
def table55 : Table := .node table53 19343873802115284574666861 10000000000 1 (0) 1 (0) false 5 table54
def table56 : Table := .node (.node (.node (.node (.node (.node .leaf 40565767005579417493170852724818 1 1 (0) 1 (0) false 11 .leaf) 40565767005579417541549381124174 1 1 (0) 1 (0) false 29 .leaf) 40565767005579417554743541629001 1 1 (0) 1 (0) false 11 (.node (.node .leaf 40565767005579417633908408189042 1 1 (0) 1 (0) false 11 .leaf) 40565767005579417682286936588398 1 1 (0) 1 (0) false 29 .leaf)) 40565767005579417695481097093225 1 1 (0) 1 (0) false 11 (.node (.node (.node .leaf 40566076490543122035229922951245 1 1 (0) 1 (0) false 21 .leaf) 40566076490543122175967478415469 1 1 (0) 1 (0) false 21 .leaf) 40566095833568373439338465198157 1 1 (0) 1 (0) false 10 (.node .leaf 40566095833568373439338540695617 100000 1 (0) 1 (0) false 6 .leaf))) 40566095833568373439338540695623 100000 1 (101325) 1 (0) false 6 (.node (.node (.node (.node .leaf 40566095834029542190714892320876 9936705933 62500000000000000000000000000000000000000000000000000000000000000000000000000000000000000000 (0) 1 (0) false 3 .leaf) 40566095834029542190714892320879 9936705933 62500000000000000000000000000000000000000000000000000000000000000000000000000000000000000000 (0) 1 (0) false 3 .leaf) 40566095834029542190714892320887 9936705933 62500000000000000000000000000000000000000000000000000000000000000000000000000000000000000000 (0) 1 (0) false 3 (.node .leaf 40566115176446050701741425426504 2529285264 625 (0) 1 (0) false 5 .leaf)) 40566115176446050802896507764814 12573 625 (0) 1 (0) false 4 (.node (.node (.node .leaf 40566115176492167561925699305549 1 1 (0) 1 (0) false 5 .leaf) 40566134519194601107472097738841 9869233 1000000000000000 (0) 1 (0) false 5 .leaf) 40566134519194601116268194955347 1 1 (0) 1 (0) false 34 (.node .leaf 40566134519231494547240931819587 1 1 (0) 1 (0) false 1 .leaf)))) 40566134519231494547240931819590 5 9 (-160) 9 (0) false 1 (.node (.node (.node (.node (.node .leaf 40566134519231494547240931819595 1 1 (-5463) 20 (0) false 1 .leaf) 40566134519231494547240931819602 5 9 (-5463) 20 (0) false 1 .leaf) 40566134519351398357331859210323 473176473 256000000000000000000000000000000000000000000000000000000000000000000000000000000000000000000000000000000 (0) 1 (0) false 3 (.node .leaf 40566134519489749153389006028921 9869233 1000000000000000 (0) 1 (0) false 5 .leaf)) 40566134519489749162185103245427 1 1 (0) 1 (0) false 34 (.node (.node (.node .leaf 40566153862173735646998460104755 1 1000000000000000000000000000000000000000000000000000000000000000000000000 (0) 1 (0) false 3 .leaf) 40566153862173735646998460104883 1 1000000000000 (0) 1 (0) false 3 .leaf) 40566153862312086284725896872033 100000000000000000000000 1 (0) 1 (0) false 6 (.node .leaf 40566153862312086284725896872039 100000000000000000000000 1 (101325) 1 (0) false 6 .leaf))) 40566153862312086390279017332837 1152921504606846976 1 (0) 1 (0) false 14 (.node (.node (.node (.node .leaf 40566153862459660254907748843571 1 1000000000000000000000000000000000000000000000000000000000000000000000000 (0) 1 (-1) false 3 .leaf) 40566153862459660254907748843699 1 1000000000000000000000000000000000000000000000000000000000000000000000000 (0) 1 (-1) false 3 .leaf) 40566153862468883692915301285939 1 1000000000000000000000000000000000000000000000000000000000000000000000000 (0) 1 (0) false 3 (.node .leaf 40566153862468883692915301286067 1 1000000000000 (0) 1 (0) false 3 .leaf)) 40566173204820828775605684142148 5 9 (-160) 9 (0) false 1 (.node (.node (.node .leaf 40566173204922285648108790480986 473176473 16000000000000000000000000000000000000000000000000000000000000000000000000000000000000000000000000000000 (0) 1 (0) false 3 .leaf) 40566173204996072668384074924116 580644 625 (0) 1 (0) false 5 .leaf) 40566173205115976821522592432228 5 9 (-160) 9 (0) false 1 (.node .leaf 40566192547449475146945180729420 1 1 (0) 1 (0) false 3 .leaf))))
def table57 : Table := .node (.node (.node (.node (.node (.node .leaf 40566192547467921847038420975795 10404660096024101 24000000000000000 (0) 1 (0) false 10 .leaf) 40566192547707729559579061649491 473176473 4000000000000000000000000000000000000000000000000000000000000000000000000000000000000000000000000000000 (0) 1 (0) false 3 .leaf) 40566192547790739859532236718158 3981988955361 58908100000000000000000000000000000000000000000000000000000000000000000000000000000000000000000000000000000000 (0) 1 (0) false 3 (.node .leaf 40566192547790739859532245106771 6145149 5890810000000000000000000000000000000000000000000000000000000000000000000000000000000000000000000000000 (0) 1 (0) false 3 .leaf)) 40566192547799963315132050702387 1 1000000000000000000000000000000000000000000000000000000000000000000000000000000000 (0) 1 (0) false 3 (.node (.node (.node .leaf 40566192547799963315132050702515 1 1000000000000000000000 (0) 1 (0) false 3 .leaf) 40566192547938313952859487469665 100000000000000 1 (0) 1 (0) false 6 .leaf) 40566192547938313952859487469671 100000000000000 1 (101325) 1 (0) false 6 (.node .leaf 40566192547938314058412607930469 1073741824 1 (0) 1 (0) false 14 .leaf))) 40566192548085887923041339441203 1 1000000000000000000000000000000000000000000000000000000000000000000000000000000000 (0) 1 (-1) false 3 (.node (.node (.node (.node .leaf 40566192548085887923041339441331 1 1000000000000000000000000000000000000000000000000000000000000000000000000000000000 (0) 1 (-1) false 3 .leaf) 40566192548095111361048891883571 1 1000000000000000000000000000000000000000000000000000000000000000000000000000000000 (0) 1 (0) false 3 .leaf) 40566192548095111361048891883699 1 1000000000000000000000 (0) 1 (0) false 3 (.node .leaf 40566211890483949914294543450201 1 1 (0) 1 (0) false 28 .leaf)) 40566211890483949931886733688922 1 1 (0) 1 (0) false 29 (.node (.node (.node .leaf 40566211890557736732259686285389 100000000 1 (0) 1 (0) false 5 .leaf) 40566211890576183665449416786003 3600000000000 1 (0) 1 (0) false 0 .leaf) 40566211890779097960211451740281 1 1 (0) 1 (0) false 28 (.node .leaf 40566211890779097977803641979002 1 1 (0) 1 (0) false 29 .leaf)))) 40566231233380073938363338457166 16129 2500 (0) 1 (0) false 5 (.node (.node (.node (.node (.node .leaf 40566250576202411333582994800709 1 1 (0) 1 (0) false 19 .leaf) 40566250576497559379499903090789 1 1 (0) 1 (0) false 19 .leaf) 40566269918941738024229186568243 196133 2000000000 (0) 1 (0) false 10 (.node .leaf 40566269918941738024229186568371 196133 2000000000 (0) 1 (0) false 10 .leaf)) 40566269918969408140339750895667 1 1 (0) 1 (0) false 10 (.node (.node (.node .leaf 40566269918969408140339750895795 1 1 (0) 1 (0) false 10 .leaf) 40566269918969408140339818004531 1 1 (0) 1 (0) false 10 .leaf) 40566269918997078256450304737362 1 1 (0) 1 (0) false 13 (.node .leaf 40566269919052418651399164788787 1 1000000000000000000000000000000000000000000000000000000000000000000000000000000000000000 (0) 1 (0) false 3 .leaf))) 40566269919052418651399164788915 1 1000000000000000000000000000 (0) 1 (0) false 3 (.node (.node (.node (.node .leaf 40566269919052418651399231897651 1 1000000000000000000000000000000000000000000000000000000000000000000000000000000000000000 (0) 1 (0) false 3 .leaf) 40566269919052418651399231897779 1 1000000000000000000000000000 (0) 1 (0) false 3 .leaf) 40566269919190769289126668664929 100000000 1 (0) 1 (0) false 6 (.node .leaf 40566269919190769289126668664935 100000000 1 (101325) 1 (0) false 6 .leaf)) 40566269919190769394679789125733 1024 1 (0) 1 (0) false 14 (.node (.node (.node .leaf 40566269919236885929408606502963 196133 2000000000 (0) 1 (0) false 10 .leaf) 40566269919338343259308520636467 1 1000000000000000000000000000000000000000000000000000000000000000000000000000000000000000 (0) 1 (-1) false 3 .leaf) 40566269919338343259308520636595 1 1000000000000000000000000000000000000000000000000000000000000000000000000000000000000000 (0) 1 (-1) false 3 (.node .leaf 40566269919347566697316073078835 1 1000000000000000000000000000000000000000000000000000000000000000000000000000000000000000 (0) 1 (0) false 3 .leaf))))
def table58 : Table := .node table56 40566192547467921847038420975667 10404660096024101 24000000000000000 (0) 1 (0) false 10 table57
def table59 : Table := .node table55 40565747662757080212300495847534 127 50000 (0) 1 (0) false 4 table58
def table60 : Table := .node table52 19343827685233110055649377 5556 1 (0) 1 (0) false 4 table59
def table61 : Table := .node table45 19343569430846864464281651 1 1000000000000000000000000000000000000000000000000000000000000000 (0) 1 (0) false 3 table60
def table62 : Table := .node table30 9223807443610370170 1 100 (0) 1 (0) false 29 table61
def table63 : Table := .node (.node (.node (.node (.node (.node .leaf 40566289261773298685932585615425 473176473 1000000000000000000000000000000000000000000000000000000000000000000000000000000000000000000000000000000 (0) 1 (0) false 3 .leaf) 40566289261773298765097395552338 1 1000000000000000000000000000000000000000000000000000000000000000000000000000000000000000000000 (0) 1 (0) false 3 .leaf) 40566289261773298765097422815301 1 1000000000000000000000000000000000000000000000000000000000000000000000000000000000000000000000 (0) 1 (0) false 3 (.node (.node .leaf 40566308604549519106618725236819 2629800000000000 1 (0) 1 (0) false 0 .leaf) 40566308604549519111016771747922 1 1 (0) 1 (0) false 4 .leaf)) 40566308604549519111016799010885 1 1 (0) 1 (0) false 4 (.node (.node (.node .leaf 40566308604549519111016799010895 1 1 (0) 1 (0) false 4 .leaf) 40566308604586412414446254161993 647497027584 25 (0) 1 (0) false 5 .leaf) 40566308604586412436436476231762 25146 15625 (0) 1 (0) false 13 (.node .leaf 40566308604623306008146766463052 9936705933 62500000000000000000000000000000000000000000000000000000000000000000000000000000000000000000000 (0) 1 (0) false 3 .leaf))) 40566308604623306082913559248966 55306341 1953125000000000000000000000000000000000000000000000000000000000000000000000000000000000000000 (0) 1 (0) false 3 (.node (.node (.node (.node .leaf 40566308604623306082913594900546 9936705933 62500000000000000000000000000000000000000000000000000000000000000000000000000000000000000000000 (0) 1 (0) false 3 .leaf) 40566308604623306148884321927276 9936705933 62500000000000000000000000000000000000000000000000000000000000000000000000000000000000000000000 (0) 1 (0) false 3 .leaf) 40566308604623306166476545720371 55306341 1953125000000000000000000000000000000000000000000000000000000000000000000000000000000000000000 (0) 1 (0) false 3 (.node .leaf 40566308604623306166476545720499 55306341 1953125000000000000000000000000000000000000000000000000000000000000000000000000000000000000000 (0) 1 (0) false 3 .leaf)) 40566308604623306219253072396386 1 6289814000000000000000000000000000000000000000000000000000000000000000000000000000000 (0) 1 (-1) false 3 (.node (.node (.node .leaf 40566308604623306223651114713190 55306341 1953125000000000000000000000000000000000000000000000000000000000000000000000000000000000000000 (0) 1 (0) false 3 .leaf) 40566308604623306223651150364770 9936705933 62500000000000000000000000000000000000000000000000000000000000000000000000000000000000000000000 (0) 1 (0) false 3 .leaf) 40566308604641752804997071896648 2629800000000000 1 (0) 1 (0) false 0 (.node .leaf 40566308604678646319532755386419 1 1000000000000000000000000000000000000000000000000000000000000000000000000000000000000 (0) 1 (0) false 3 .leaf)))) 40566308604678646319532755386547 1 1000000000000000000000000 (0) 1 (0) false 3 (.node (.node (.node (.node (.node .leaf 40566308604678646319532822495283 1 1000000000000000000000000000000000000000000000000000000000000000000000000000000000000 (0) 1 (0) false 3 .leaf) 40566308604678646319532822495411 1 1000000000000000000000000 (0) 1 (0) false 3 .leaf) 40566308604816996957260259262561 100000000000 1 (0) 1 (0) false 6 (.node .leaf 40566308604816996957260259262567 100000000000 1 (101325) 1 (0) false 6 .leaf)) 40566308604816997062813379723365 1048576 1 (0) 1 (0) false 14 (.node (.node (.node .leaf 40566308604964570927442111234099 1 1000000000000000000000000000000000000000000000000000000000000000000000000000000000000 (0) 1 (-1) false 3 .leaf) 40566308604964570927442111234227 1 1000000000000000000000000000000000000000000000000000000000000000000000000000000000000 (0) 1 (-1) false 3 .leaf) 40566308604973794365449640607852 9936705933 62500000000000000000000000000000000000000000000000000000000000000000000000000000000000000000000000 (0) 1 (0) false 3 (.node .leaf 40566308604973794365449640607855 9936705933 62500000000000000000000000000000000000000000000000000000000000000000000000000000000000000000000000 (0) 1 (0) false 3 .leaf))) 40566308604973794365449640607863 9936705933 62500000000000000000000000000000000000000000000000000000000000000000000000000000000000000000000000 (0) 1 (0) false 3 (.node (.node (.node (.node .leaf 40566308604973794365449663676467 1 1000000000000000000000000000000000000000000000000000000000000000000000000000000000000 (0) 1 (0) false 3 .leaf) 40566308604973794365449663676595 1 1000000000000000000000000 (0) 1 (0) false 3 .leaf) 40566347290203416864474544472129 1 1 (0) 1 (0) false 21 (.node .leaf 40566347290203416864474552860749 1 1 (0) 1 (0) false 23 .leaf)) 40566347290323320705351755497541 473176473 16000000000000000000000000000000000000000000000000000000000000000000000000000000000000000000000000000000 (0) 1 (0) false 3 (.node (.node (.node .leaf 40566366633025754074976329138259 473176473 1000000000000000000000000000000000000000000000000000000000000000000000000000000000000000000000000000000 (0) 1 (0) false 3 .leaf) 40566366633081094285207223140421 1 1 (0) 1 (0) false 16 .leaf) 40566366633081094337983770787908 473176473 1000000000000000000000000000000000000000000000000000000000000000000000000000000000000000000000000000000 (0) 1 (0) false 3 (.node .leaf 40566366633117987821733208391731 1 1000000000000000000000000000000000000000000000000000000000000000000000000000 (0) 1 (0) false 3 .leaf))))
def table64 : Table := .node (.node (.node (.node (.node (.node .leaf 40566366633256338459460645159009 100000000000000000000 1 (0) 1 (0) false 6 .leaf) 40566366633256338459460645159015 100000000000000000000 1 (101325) 1 (0) false 6 .leaf) 40566366633256338565013765619813 1125899906842624 1 (0) 1 (0) false 14 (.node (.node .leaf 40566366633376242331124131430501 1 1 (0) 1 (0) false 16 .leaf) 40566366633403912429642497130547 1 1000000000000000000000000000000000000000000000000000000000000000000000000000 (0) 1 (-1) false 3 .leaf)) 40566366633403912429642497130675 1 1000000000000000000000000000000000000000000000000000000000000000000000000000 (0) 1 (-1) false 3 (.node (.node (.node .leaf 40566366633413135867650049572915 1 1000000000000000000000000000000000000000000000000000000000000000000000000000 (0) 1 (0) false 3 .leaf) 40566366633413135867650049573043 1 1000000000000000 (0) 1 (0) false 3 .leaf) 40566385975931101655800003690547 1 1000000000000000000000000000000000000000000000000000000000000 (0) 1 (0) false 3 (.node .leaf 40566385975931101655800003690675 1 1 (0) 1 (0) false 3 .leaf))) 40566385975949548316310772908116 473176473 500000000000000000000000000000000000000000000000000000000000000000000000000000000000000000000000000000 (0) 1 (0) false 3 (.node (.node (.node (.node .leaf 40566385976069452293527440457825 100000000000000000000000000000000000 1 (0) 1 (0) false 6 .leaf) 40566385976069452293527440457831 100000000000000000000000000000000000 1 (101325) 1 (0) false 6 .leaf) 40566385976217026263709292429363 1 1000000000000000000000000000000000000000000000000000000000000 (0) 1 (-1) false 3 (.node .leaf 40566385976217026263709292429491 1 1000000000000000000000000000000000000000000000000000000000000 (0) 1 (-1) false 3 .leaf)) 40566385976226249701716844871731 1 1000000000000000000000000000000000000000000000000000000000000 (0) 1 (0) false 3 (.node (.node (.node .leaf 40566385976226249701716844871859 1 1 (0) 1 (0) false 3 .leaf) 40566405318578194793203337527375 1 1 (0) 1 (0) false 32 .leaf) 40566405318605864724595967262788 158080329 625 (0) 1 (0) false 5 (.node .leaf 40566405318744215489866798989363 1 1000000000000000000000000000000000000000000000000000000000000000 (0) 1 (0) false 3 .leaf)))) 40566405318744215489866798989491 1 1000 (0) 1 (0) false 3 (.node (.node (.node (.node (.node .leaf 40566405318882566127594235756641 100000000000000000000000000000000 1 (0) 1 (0) false 6 .leaf) 40566405318882566127594235756647 100000000000000000000000000000000 1 (101325) 1 (0) false 6 .leaf) 40566405319030140097776087728179 1 1000000000000000000000000000000000000000000000000000000000000000 (0) 1 (-1) false 3 (.node .leaf 40566405319030140097776087728307 1 1000000000000000000000000000000000000000000000000000000000000000 (0) 1 (-1) false 3 .leaf)) 40566405319039363535783640170547 1 1000000000000000000000000000000000000000000000000000000000000000 (0) 1 (0) false 3 (.node (.node (.node .leaf 40566405319039363535783640170675 1 1000 (0) 1 (0) false 3 .leaf) 40566424661428202040650706714692 1 1 (0) 1 (0) false 36 .leaf) 40566424661538882351161378078792 2529285264 625 (0) 1 (0) false 5 (.node .leaf 40566424661538882351161378078797 1 1 (0) 1 (0) false 5 .leaf))) 40566424661538882351161384370260 580644 625 (0) 1 (0) false 5 (.node (.node (.node (.node .leaf 40566424661538882351161388564557 100000000 1 (0) 1 (0) false 5 .leaf) 40566424661538882351161390661710 16129 2500 (0) 1 (0) false 5 .leaf) 40566424661538882351161394856013 10000000000 1 (0) 1 (0) false 5 (.node .leaf 40566424661538882351161399050313 647497027584 25 (0) 1 (0) false 5 .leaf)) 40566424661538882351161409536068 158080329 625 (0) 1 (0) false 5 (.node (.node (.node .leaf 40566424661538882351161413730373 16129 250000 (0) 1 (0) false 5 .leaf) 40566424661538882351161413730376 16129 2500000000 (0) 1 (0) false 5 .leaf) 40566424661538882351161424216132 5225796 625 (0) 1 (0) false 5 (.node .leaf 40566424661538882509491048284237 1000000 1 (0) 1 (0) false 5 .leaf))))
def table65 : Table := .node table63 40566366633117987821733208391859 1 1000000000000000 (0) 1 (0) false 3 table64
def table66 : Table := .node (.node (.node (.node (.node (.node .leaf 40566424661538882544675428761665 5827473248256 25 (0) 1 (0) false 5 .leaf) 40566424661566552665184001851460 1 1 (0) 1 (0) false 12 .leaf) 40566424661566552673980151496773 3312235311 500000000000000000000000000000000000000000000000000000000000000000000000000000000000000000000000000000 (0) 1 (0) false 3 (.node (.node .leaf 40566444004241315764766416830533 16129 250000 (0) 1 (0) false 5 .leaf) 40566444004241315923096091230280 127 50000 (0) 1 (0) false 4 .leaf)) 40566444004268985880876981157960 16129 2500000000 (0) 1 (0) false 5 (.node (.node (.node .leaf 40566444004333549643464626405445 6145149 5890810000000000000000000000000000000000000000000000000000000000000000000000000000000000000000000 (0) 1 (0) false 3 .leaf) 40566444004370443158000389586995 1 1000000000000000000000000000000000000000000000000000000000000000000000000000000 (0) 1 (0) false 3 .leaf) 40566444004370443158000389587123 1 1000000000000000000 (0) 1 (0) false 3 (.node .leaf 40566444004508793795727826354273 100000000000000000 1 (0) 1 (0) false 6 .leaf))) 40566444004508793795727826354279 100000000000000000 1 (101325) 1 (0) false 6 (.node (.node (.node (.node .leaf 40566444004508793901280946815077 1099511627776 1 (0) 1 (0) false 14 .leaf) 40566444004628697689381534695525 6145149 5890810000000000000000000000000000000000000000000000000000000000000000000000000000000000000000000 (0) 1 (0) false 3 .leaf) 40566444004656367765909678325811 1 1000000000000000000000000000000000000000000000000000000000000000000000000000000 (0) 1 (-1) false 3 (.node .leaf 40566444004656367765909678325939 1 1000000000000000000000000000000000000000000000000000000000000000000000000000000 (0) 1 (-1) false 3 .leaf)) 40566444004665591203917207699564 9936705933 62500000000000000000000000000000000000000000000000000000000000000000000000000000000000000 (0) 1 (0) false 3 (.node (.node (.node .leaf 40566444004665591203917207699567 9936705933 62500000000000000000000000000000000000000000000000000000000000000000000000000000000000000 (0) 1 (0) false 3 .leaf) 40566444004665591203917207699575 9936705933 62500000000000000000000000000000000000000000000000000000000000000000000000000000000000000 (0) 1 (0) false 3 .leaf) 40566444004665591203917230768179 1 1000000000000000000000000000000000000000000000000000000000000000000000000000000 (0) 1 (0) false 3 (.node .leaf 40566444004665591203917230768307 1 1000000000000000000 (0) 1 (0) false 3 .leaf)))) 40566463347109770015772283764814 3312235311 3125000000000000000000000000000000000000000000000000000000000000000000000000000000000000000000000000 (0) 1 (0) false 3 (.node (.node (.node (.node (.node .leaf 40566463347109770081743065317492 3312235311 62500000000000000000000000000000000000000000000000000000000000000000000000000000000000000000000000000 (0) 1 (0) false 3 .leaf) 40566463347109770099335205224556 454609 100000000000000000000000000000000000000000000000000000000000000000000000000000000000000000000000000 (0) 1 (0) false 3 .leaf) 40566463347109770156509839229038 3312235311 3125000000000000000000000000000000000000000000000000000000000000000000000000000000000000000000000000 (0) 1 (0) false 3 (.node .leaf 40566463347183556992067121971278 473176473 500000000000000000000000000000000000000000000000000000000000000000000000000000000000000000000000000 (0) 1 (0) false 3 .leaf)) 40566463347183557058037903523956 473176473 10000000000000000000000000000000000000000000000000000000000000000000000000000000000000000000000000000 (0) 1 (0) false 3 (.node (.node (.node .leaf 40566463347183557075630043431020 473176473 125000000000000000000000000000000000000000000000000000000000000000000000000000000000000000000000000000 (0) 1 (0) false 3 .leaf) 40566463347183557132804677435502 473176473 500000000000000000000000000000000000000000000000000000000000000000000000000000000000000000000000000 (0) 1 (0) false 3 .leaf) 40566482689664629410816898105421 1 1 (0) 1 (0) false 22 (.node .leaf 40566482689664629551554453569645 1 1 (0) 1 (0) false 22 .leaf))) 40566502032680657385714039652435 604800000000000 1 (0) 1 (0) false 0 (.node (.node (.node (.node .leaf 40566540718297661563063549034564 5225796 625 (0) 1 (0) false 5 .leaf) 40566540718306885036255458885715 31557600000000000 1 (0) 1 (0) false 0 .leaf) 40566540718436012328334366081075 1 1000000000000000000000000000000000000000000000000000000000000000000 (0) 1 (0) false 3 (.node .leaf 40566540718436012328334366081203 1 1000000 (0) 1 (0) false 3 .leaf)) 40566540718574362966061802848353 100000000000000000000000000000 1 (0) 1 (0) false 6 (.node (.node (.node .leaf 40566540718574362966061802848359 100000000000000000000000000000 1 (101325) 1 (0) false 6 .leaf) 40566540718574363071614923309157 1208925819614629174706176 1 (0) 1 (0) false 14 .leaf) 40566540718721936936243654819891 1 1000000000000000000000000000000000000000000000000000000000000000000 (0) 1 (-1) false 3 (.node .leaf 40566540718721936936243654820019 1 1000000000000000000000000000000000000000000000000000000000000000000 (0) 1 (-1) false 3 .leaf))))
def table67 : Table := .node (.node (.node (.node (.node (.node .leaf 40566540718731160374251207262387 1 1000000 (0) 1 (0) false 3 .leaf) 40566560061249126162401161379891 1 1000000000000000000000000000000000000000000000000000000000000000000000 (0) 1 (0) false 3 .leaf) 40566560061249126162401161380019 1 1000000000 (0) 1 (0) false 3 (.node .leaf 40566560061387476800128598147169 100000000000000000000000000 1 (0) 1 (0) false 6 .leaf)) 40566560061387476800128598147175 100000000000000000000000000 1 (101325) 1 (0) false 6 (.node (.node (.node .leaf 40566560061387476905681718607973 1180591620717411303424 1 (0) 1 (0) false 14 .leaf) 40566560061535050770310450118707 1 1000000000000000000000000000000000000000000000000000000000000000000000 (0) 1 (-1) false 3 .leaf) 40566560061535050770310450118835 1 1000000000000000000000000000000000000000000000000000000000000000000000 (0) 1 (-1) false 3 (.node .leaf 40566560061544274208318002561075 1 1000000000000000000000000000000000000000000000000000000000000000000000 (0) 1 (0) false 3 .leaf))) 40566560061544274208318002561203 1 1000000000 (0) 1 (0) false 3 (.node (.node (.node (.node .leaf 40566695460940923000868728471603 1 1000000000000000000000000000000000000000000000000000000000000000000000000000000000000000000000000000000000000 (0) 1 (0) false 3 .leaf) 40566695460940923000868728471731 1 1000000000000000000000000000000000000000000000000 (0) 1 (0) false 3 .leaf) 40566695461079273638596165238881 1 10000000000000 (0) 1 (0) false 6 (.node .leaf 40566695461079273638596165238887 1 10000000000000 (101325) 1 (0) false 6 .leaf)) 40566695461226847608778017210419 1 1000000000000000000000000000000000000000000000000000000000000000000000000000000000000000000000000000000000000 (0) 1 (-1) false 3 (.node (.node (.node .leaf 40566695461226847608778017210547 1 1000000000000000000000000000000000000000000000000000000000000000000000000000000000000000000000000000000000000 (0) 1 (-1) false 3 .leaf) 40566695461236071046785569652787 1 1000000000000000000000000000000000000000000000000000000000000000000000000000000000000000000000000000000000000 (0) 1 (0) false 3 .leaf) 40566695461236071046785569652915 1 1000000000000000000000000000000000000000000000000 (0) 1 (0) false 3 (.node .leaf 40566714803883164175392755941485 1 1 (0) 1 (0) false 10 .leaf)))) 40566714803883164175392898547809 100000 1 (0) 1 (0) false 6 (.node (.node (.node (.node (.node .leaf 40566714803883164175392898547815 100000 1 (101325) 1 (0) false 6 .leaf) 40566734146567150669002319069235 1 100000000000000000000000000000000000000000000000000000000000000000000000000000000000000000000 (0) 1 (0) false 3 .leaf) 40566734146567150669002319069363 1 100000000000000000000000000000000 (0) 1 (0) false 3 (.node .leaf 40566734146705501306729755836513 1000 1 (0) 1 (0) false 6 .leaf)) 40566734146705501306729755836519 1000 1 (101325) 1 (0) false 6 (.node (.node (.node .leaf 40566734146760841297058294923368 2529285264 625 (0) 1 (0) false 5 .leaf) 40566734146760841538950865617006 12573 625 (0) 1 (0) false 4 .leaf) 40566734146806958157242568802413 1 1 (0) 1 (0) false 5 (.node .leaf 40566734146853075276911607808051 1 100000000000000000000000000000000000000000000000000000000000000000000000000000000000000000000 (0) 1 (-1) false 3 .leaf))) 40566734146853075276911607808179 1 100000000000000000000000000000000000000000000000000000000000000000000000000000000000000000000 (0) 1 (-1) false 3 (.node (.node (.node (.node .leaf 40566734146862298714919160250419 1 100000000000000000000000000000000000000000000000000000000000000000000000000000000000000000000 (0) 1 (0) false 3 .leaf) 40566734146862298714919160250547 1 100000000000000000000000000000000 (0) 1 (0) false 3 .leaf) 40566753489380264503069114368051 1 10000000000000000000000000000000000000000000000000000000000000000000000000000000000000000000 (0) 1 (0) false 3 (.node .leaf 40566753489380264503069114368179 1 10000000000000000000000000000000 (0) 1 (0) false 3 .leaf)) 40566753489509391707187034718259 1 100000000000000000000000000000000000000000000000000000000000000000000000000000000000000000 (0) 1 (0) false 3 (.node (.node (.node .leaf 40566753489509391707187034718387 1 100000000000000000000000000000000000000000000000000000000000000000000000000000000000000000 (0) 1 (0) false 3 .leaf) 40566753489509391773157707219058 1000000 1 (0) 1 (0) false 6 .leaf) 40566753489509391843526455591033 9869233 1000000000000000 (0) 1 (0) false 5 (.node .leaf 40566753489509391847924523073587 1 100000000000000000000000000000000000000000000000000000000000000000000000000000000000000000 (0) 1 (0) false 3 .leaf))))
def table68 : Table := .node table66 40566540718731160374251207262259 1 1000000000000000000000000000000000000000000000000000000000000000000 (0) 1 (0) false 3 table67
def table69 : Table := .node table65 40566424661538882518287183249490 10117141056 25 (0) 1 (0) false 5 table68
def table70 : Table := .node (.node (.node (.node (.node (.node .leaf 40566753489509391852322552807539 1 1 (0) 1 (0) false 34 .leaf) 40566753489518615140796551135329 10000 1 (0) 1 (0) false 6 .leaf) 40566753489518615140796551135335 10000 1 (101325) 1 (0) false 6 (.node (.node .leaf 40566753489546285283295222562883 1 1 (0) 1 (0) false 1 .leaf) 40566753489546285283295222562886 5 9 (-160) 9 (0) false 1 .leaf)) 40566753489546285283295222562891 1 1 (-5463) 20 (0) false 1 (.node (.node (.node .leaf 40566753489546285283295222562898 5 9 (-5463) 20 (0) false 1 .leaf) 40566753489546285283295222562915 1 1 (0) 1 (0) false 1 .leaf) 40566753489546285283295222562918 5 9 (-160) 9 (0) false 1 (.node .leaf 40566753489546285283295222562923 1 1 (-5463) 20 (0) false 1 .leaf))) 40566753489546285283295222562930 5 9 (-5463) 20 (0) false 1 (.node (.node (.node (.node .leaf 40566753489666189093386217062515 473176473 256000000000000000000000000000000000000000000000000000000000000000000000000000000000000000000000000000000 (0) 1 (0) false 3 .leaf) 40566753489666189110978403106867 1 10000000000000000000000000000000000000000000000000000000000000000000000000000000000000000000 (0) 1 (-1) false 3 .leaf) 40566753489666189110978403106995 1 10000000000000000000000000000000000000000000000000000000000000000000000000000000000000000000 (0) 1 (-1) false 3 (.node .leaf 40566753489675412548985955549235 1 10000000000000000000000000000000000000000000000000000000000000000000000000000000000000000000 (0) 1 (0) false 3 .leaf)) 40566753489675412548985955549363 1 10000000000000000000000000000000 (0) 1 (0) false 3 (.node (.node (.node .leaf 40566792175006492171202704965683 1 1000000000000000000000000000000000000000000000000000000000000000000000000000000000000000000000000000000000 (0) 1 (0) false 3 .leaf) 40566792175006492171202704965811 1 1000000000000000000000000000000000000000000000 (0) 1 (0) false 3 .leaf) 40566792175144842808930141732961 1 10000000000 (0) 1 (0) false 6 (.node .leaf 40566792175144842808930141732967 1 10000000000 (101325) 1 (0) false 6 .leaf)))) 40566792175237076243425659977850 473176473 16000000000000000000000000000000000000000000000000000000000000000000000000000000000000000000000000000000 (0) 1 (0) false 3 (.node (.node (.node (.node (.node .leaf 40566792175292416779111993704499 1 1000000000000000000000000000000000000000000000000000000000000000000000000000000000000000000000000000000000 (0) 1 (-1) false 3 .leaf) 40566792175292416779111993704627 1 1000000000000000000000000000000000000000000000000000000000000000000000000000000000000000000000000000000000 (0) 1 (-1) false 3 .leaf) 40566792175301640217119546146867 1 1000000000000000000000000000000000000000000000000000000000000000000000000000000000000000000000000000000000 (0) 1 (0) false 3 (.node .leaf 40566792175301640217119546146995 1 1000000000000000000000000000000000000000000000 (0) 1 (0) false 3 .leaf)) 40566792175310863263700944420980 580644 625 (0) 1 (0) false 5 (.node (.node (.node .leaf 40566792175310863285691204239410 1 1 (0) 1 (0) false 31 .leaf) 40566792175310863861835269931124 55306341 1953125000000000000000000000000000000000000000000000000000000000000000000000000000000000000000000000 (0) 1 (0) false 3 .leaf) 40566811517469117977820185755756 1 1 (0) 1 (0) false 3 (.node .leaf 40566811517487564677913426001971 10404660096024101 24000000000000000 (0) 1 (0) false 10 .leaf))) 40566811517487564677913426002099 10404660096024101 24000000000000000 (0) 1 (0) false 10 (.node (.node (.node (.node .leaf 40566811517948733319338533060683 454609 100000000000000000000000000000000000000000000000000000000000000000000000000000000000000000000000000 (0) 1 (0) false 3 .leaf) 40566811517948733319338533060691 473176473 125000000000000000000000000000000000000000000000000000000000000000000000000000000000000000000000000000 (0) 1 (0) false 3 .leaf) 40566811518022520295633419501683 473176473 4000000000000000000000000000000000000000000000000000000000000000000000000000000000000000000000000000000 (0) 1 (0) false 3 (.node .leaf 40566811518105530595586594570350 3981988955361 58908100000000000000000000000000000000000000000000000000000000000000000000000000000000000000000000000000000000 (0) 1 (0) false 3 .leaf)) 40566811518105530595586602958963 6145149 5890810000000000000000000000000000000000000000000000000000000000000000000000000000000000000000000000000 (0) 1 (0) false 3 (.node (.node (.node .leaf 40566830860632719839336295563315 1 10000000000000000000000000000000000000000000000000000000000000000000000000000000000000000 (0) 1 (0) false 3 .leaf) 40566830860632719839336295563443 1 10000000000000000000000000000 (0) 1 (0) false 3 .leaf) 40566830860771070477063732330593 10000000 1 (0) 1 (0) false 6 (.node .leaf 40566830860771070477063732330599 10000000 1 (101325) 1 (0) false 6 .leaf))))
def table71 : Table := .node (.node (.node (.node (.node (.node .leaf 40566830860872527327576555782253 100000000 1 (0) 1 (0) false 5 .leaf) 40566830860890974401503774638195 3600000000000 1 (0) 1 (0) false 0 .leaf) 40566830860918644447245584302131 1 10000000000000000000000000000000000000000000000000000000000000000000000000000000000000000 (0) 1 (-1) false 3 (.node (.node .leaf 40566830860918644447245584302259 1 10000000000000000000000000000000000000000000000000000000000000000000000000000000000000000 (0) 1 (-1) false 3 .leaf) 40566830860927867885253136744499 1 10000000000000000000000000000000000000000000000000000000000000000000000000000000000000000 (0) 1 (0) false 3 .leaf)) 40566830860927867885253136744627 1 10000000000000000000000000000 (0) 1 (0) false 3 (.node (.node (.node .leaf 40566850203694864533680207954030 16129 2500 (0) 1 (0) false 5 .leaf) 40566869546517202069637352652901 1 1 (0) 1 (0) false 19 .leaf) 40566888888989050830477267566643 1 1 (0) 1 (0) false 10 (.node .leaf 40566888888989050830477267566771 1 1 (0) 1 (0) false 10 .leaf))) 40566888889072061341536681459763 1 1000000000000000000000000000000000000000000000000000000000000000000000000000000000000000 (0) 1 (0) false 3 (.node (.node (.node (.node .leaf 40566888889072061341536681459891 1 1000000000000000000000000000 (0) 1 (0) false 3 .leaf) 40566888889210411979264118227041 100000000 1 (0) 1 (0) false 6 .leaf) 40566888889210411979264118227047 100000000 1 (101325) 1 (0) false 6 (.node .leaf 40566888889210412084817238687845 1024 1 (0) 1 (0) false 14 .leaf)) 40566888889256528619546056065075 196133 2000000000 (0) 1 (0) false 10 (.node (.node (.node .leaf 40566888889256528619546056065203 196133 2000000000 (0) 1 (0) false 10 .leaf) 40566888889311868851767174234226 1 1 (0) 1 (0) false 13 .leaf) 40566888889357985949445970198579 1 1000000000000000000000000000000000000000000000000000000000000000000000000000000000000000 (0) 1 (-1) false 3 (.node .leaf 40566888889357985949445970198707 1 1000000000000000000000000000000000000000000000000000000000000000000000000000000000000000 (0) 1 (-1) false 3 .leaf)))) 40566888889367209387453522640947 1 1000000000000000000000000000000000000000000000000000000000000000000000000000000000000000 (0) 1 (0) false 3 (.node (.node (.node (.node (.node .leaf 40566888889367209387453522641075 1 1000000000000000000000000000 (0) 1 (0) false 3 .leaf) 40566908232088089421986943467617 473176473 1000000000000000000000000000000000000000000000000000000000000000000000000000000000000000000000000000000 (0) 1 (0) false 3 .leaf) 40566908232088089501151753404530 1 1000000000000000000000000000000000000000000000000000000000000000000000000000000000000000000000 (0) 1 (0) false 3 (.node .leaf 40566908232088089501151780667493 1 1000000000000000000000000000000000000000000000000000000000000000000000000000000000000000000000 (0) 1 (0) false 3 .leaf)) 40566908232088089501151780667503 1 1000000000000000000000000000000000000000000000000000000000000000000000000000000000000000000000 (0) 1 (0) false 3 (.node (.node (.node .leaf 40566927574698289009670272057395 1 1000000000000000000000000000000000000000000000000000000000000000000000000000000000000000000000 (0) 1 (0) false 3 .leaf) 40566927574698289009670272057523 1 1000000000000000000000000000000000 (0) 1 (0) false 3 .leaf) 40566927574836639647397708824673 100 1 (0) 1 (0) false 6 (.node .leaf 40566927574836639647397708824679 100 1 (101325) 1 (0) false 6 .leaf))) 40566927574864309842673083089011 2629800000000000 1 (0) 1 (0) false 0 (.node (.node (.node (.node .leaf 40566927574864309847071129600114 1 1 (0) 1 (0) false 4 .leaf) 40566927574864309847071156863077 1 1 (0) 1 (0) false 4 .leaf) 40566927574864309847071156863087 1 1 (0) 1 (0) false 4 (.node .leaf 40566927574901203009763123658857 647497027584 25 (0) 1 (0) false 5 .leaf)) 40566927574901203031753345728626 25146 15625 (0) 1 (0) false 13 (.node (.node (.node .leaf 40566927574956543541051429748840 2629800000000000 1 (0) 1 (0) false 0 .leaf) 40566927574984213617579560796211 1 1000000000000000000000000000000000000000000000000000000000000000000000000000000000000000000000 (0) 1 (-1) false 3 .leaf) 40566927574984213617579560796339 1 1000000000000000000000000000000000000000000000000000000000000000000000000000000000000000000000 (0) 1 (-1) false 3 (.node .leaf 40566927574993437055587113238579 1 1000000000000000000000000000000000000000000000000000000000000000000000000000000000000000000000 (0) 1 (0) false 3 .leaf))))
def table72 : Table := .node table70 40566830860798740667941091541114 1 1 (0) 1 (0) false 29 table71
def table73 : Table := .node (.node (.node (.node (.node (.node .leaf 40566946917511402843737067356211 1 1000000000000000000000000000000000000000000000000000000000000000000000000000000000000000000000000000 (0) 1 (0) false 3 .leaf) 40566946917511402843737067356339 1 1000000000000000000000000000000000000000 (0) 1 (0) false 3 .leaf) 40566946917649753481464504123489 1 10000 (0) 1 (0) false 6 (.node (.node .leaf 40566946917649753481464504123495 1 10000 (101325) 1 (0) false 6 .leaf) 40566946917797327451646356095027 1 1000000000000000000000000000000000000000000000000000000000000000000000000000000000000000000000000000 (0) 1 (-1) false 3 .leaf)) 40566946917797327451646356095155 1 1000000000000000000000000000000000000000000000000000000000000000000000000000000000000000000000000000 (0) 1 (-1) false 3 (.node (.node (.node .leaf 40566946917806550889653908537395 1 1000000000000000000000000000000000000000000000000000000000000000000000000000000000000000000000000000 (0) 1 (0) false 3 .leaf) 40566946917806550889653908537523 1 1000000000000000000000000000000000000000 (0) 1 (0) false 3 .leaf) 40566966260518207600528835215425 1 1 (0) 1 (0) false 21 (.node .leaf 40566966260518207600528843604077 1 1 (0) 1 (0) false 23 .leaf))) 40566966260638111441406113349733 473176473 16000000000000000000000000000000000000000000000000000000000000000000000000000000000000000000000000000000 (0) 1 (0) false 3 (.node (.node (.node (.node .leaf 40566985603137630511870657953843 1 1000000000000000000000000000000000000000000000000000000000000000000000000000000000000000000000000000000 (0) 1 (0) false 3 .leaf) 40566985603137630511870657953971 1 1000000000000000000000000000000000000000000 (0) 1 (0) false 3 .leaf) 40566985603275981149598094721121 1 10000000 (0) 1 (0) false 6 (.node .leaf 40566985603275981149598094721127 1 10000000 (101325) 1 (0) false 6 .leaf)) 40566985603340544811030686990451 473176473 1000000000000000000000000000000000000000000000000000000000000000000000000000000000000000000000000000000 (0) 1 (0) false 3 (.node (.node (.node .leaf 40566985603395885074038128640100 473176473 1000000000000000000000000000000000000000000000000000000000000000000000000000000000000000000000000000000 (0) 1 (0) false 3 .leaf) 40566985603423555119779946692659 1 1000000000000000000000000000000000000000000000000000000000000000000000000000000000000000000000000000000 (0) 1 (-1) false 3 .leaf) 40566985603423555119779946692787 1 1000000000000000000000000000000000000000000000000000000000000000000000000000000000000000000000000000000 (0) 1 (-1) false 3 (.node .leaf 40566985603432778509408857489517 1 1 (0) 1 (0) false 10 .leaf)))) 40566985603432778557787499135027 1 1000000000000000000000000000000000000000000000000000000000000000000000000000000000000000000000000000000 (0) 1 (0) false 3 (.node (.node (.node (.node (.node .leaf 40566985603432778557787499135155 1 1000000000000000000000000000000000000000000 (0) 1 (0) false 3 .leaf) 40567004945950744345937453252659 1 1000000000000000000000000000000000000000000000000000000000000000000000000000000000000000000000000000000000000000000000000 (0) 1 (0) false 3 .leaf) 40567004945950744345937453252787 1 1000000000000000000000000000000000000000000000000000000000000 (0) 1 (0) false 3 (.node .leaf 40567004946089094983664890019937 1 10000000000000000000000000 (0) 1 (0) false 6 .leaf)) 40567004946089094983664890019943 1 10000000000000000000000000 (101325) 1 (0) false 6 (.node (.node (.node .leaf 40567004946236668953846741991475 1 1000000000000000000000000000000000000000000000000000000000000000000000000000000000000000000000000000000000000000000000000 (0) 1 (-1) false 3 .leaf) 40567004946236668953846741991603 1 1000000000000000000000000000000000000000000000000000000000000000000000000000000000000000000000000000000000000000000000000 (0) 1 (-1) false 3 .leaf) 40567004946245892391854294433843 1 1000000000000000000000000000000000000000000000000000000000000000000000000000000000000000000000000000000000000000000000000 (0) 1 (0) false 3 (.node .leaf 40567004946245892391854294433971 1 1000000000000000000000000000000000000000000000000000000000000 (0) 1 (0) false 3 .leaf))) 40567004946264339052365130760308 473176473 500000000000000000000000000000000000000000000000000000000000000000000000000000000000000000000000000000 (0) 1 (0) false 3 (.node (.node (.node (.node .leaf 40567024288763858180004248551475 1 1000000000000000000000000000000000000000000000000000000000000000000000000000000000000000000000000000000000000000000000 (0) 1 (0) false 3 .leaf) 40567024288763858180004248551603 1 1000000000000000000000000000000000000000000000000000000000 (0) 1 (0) false 3 .leaf) 40567024288892985529257695379567 1 1 (0) 1 (0) false 32 (.node .leaf 40567024288902208817731685318753 1 10000000000000000000000 (0) 1 (0) false 6 .leaf)) 40567024288902208817731685318759 1 10000000000000000000000 (101325) 1 (0) false 6 (.node (.node (.node .leaf 40567024288920655319912836759652 158080329 625 (0) 1 (0) false 5 .leaf) 40567024288929878942638332182579 1 1 (0) 1 (0) false 3 .leaf) 40567024288929878942638332182707 1 1 (0) 1 (0) false 3 (.node .leaf 40567024289049782787913537290291 1 1000000000000000000000000000000000000000000000000000000000000000000000000000000000000000000000000000000000000000000000 (0) 1 (-1) false 3 .leaf))))
def table74 : Table := .node (.node (.node (.node (.node (.node .leaf 40567024289059006225921089732659 1 1000000000000000000000000000000000000000000000000000000000000000000000000000000000000000000000000000000000000000000000 (0) 1 (0) false 3 .leaf) 40567024289059006225921089732787 1 1000000000000000000000000000000000000000000000000000000000 (0) 1 (0) false 3 .leaf) 40567043631742992776704997458020 1 1 (0) 1 (0) false 36 (.node .leaf 40567043631853672946478247575656 2529285264 625 (0) 1 (0) false 5 .leaf)) 40567043631853672946478247575661 1 1 (0) 1 (0) false 5 (.node (.node (.node .leaf 40567043631853672946478253867124 580644 625 (0) 1 (0) false 5 .leaf) 40567043631853672946478258061421 100000000 1 (0) 1 (0) false 5 .leaf) 40567043631853672946478260158574 16129 2500 (0) 1 (0) false 5 (.node .leaf 40567043631853672946478264352877 10000000000 1 (0) 1 (0) false 5 .leaf))) 40567043631853672946478268547177 647497027584 25 (0) 1 (0) false 5 (.node (.node (.node (.node .leaf 40567043631853672946478279032932 158080329 625 (0) 1 (0) false 5 .leaf) 40567043631853672946478283227237 16129 250000 (0) 1 (0) false 5 .leaf) 40567043631853672946478283227240 16129 2500000000 (0) 1 (0) false 5 (.node .leaf 40567043631853672946478293712996 5225796 625 (0) 1 (0) false 5 .leaf)) 40567043631853673245545406136429 1000000 1 (0) 1 (0) false 5 (.node (.node (.node .leaf 40567043631853673254341541101682 10117141056 25 (0) 1 (0) false 5 .leaf) 40567043631853673280729786613857 5827473248256 25 (0) 1 (0) false 5 .leaf) 40567043631881343401238292594788 1 1 (0) 1 (0) false 12 (.node .leaf 40567043631881343410034509348965 3312235311 500000000000000000000000000000000000000000000000000000000000000000000000000000000000000000000000000000 (0) 1 (0) false 3 .leaf)))) 40567043631909013548135253803083 3312235311 62500000000000000000000000000000000000000000000000000000000000000000000000000000000000000000000000000 (0) 1 (0) false 3 (.node (.node (.node (.node (.node .leaf 40567043631909013548135253803091 473176473 10000000000000000000000000000000000000000000000000000000000000000000000000000000000000000000000000000 (0) 1 (0) false 3 .leaf) 40567062974556106360083286327397 16129 250000 (0) 1 (0) false 5 .leaf) 40567062974556106659150449082472 127 50000 (0) 1 (0) false 4 (.node .leaf 40567062974583776476193850654824 16129 2500000000 (0) 1 (0) false 5 .leaf)) 40567062974648340379518931828811 3312235311 3125000000000000000000000000000000000000000000000000000000000000000000000000000000000000000000000000 (0) 1 (0) false 3 (.node (.node (.node .leaf 40567062974648340379518931828819 473176473 500000000000000000000000000000000000000000000000000000000000000000000000000000000000000000000000000 (0) 1 (0) false 3 .leaf) 40567062974648340379518984257637 6145149 5890810000000000000000000000000000000000000000000000000000000000000000000000000000000000000000000 (0) 1 (0) false 3 .leaf) 40567082317203199682204634447923 1 1000000000000000000000000000000000000000000000000000000000000000000000000000000000000000000000000 (0) 1 (0) false 3 (.node .leaf 40567082317203199682204634448051 1 1000000000000000000000000000000000000 (0) 1 (0) false 3 .leaf))) 40567082317341550319932071215201 1 10 (0) 1 (0) false 6 (.node (.node (.node (.node .leaf 40567082317341550319932071215207 1 10 (101325) 1 (0) false 6 .leaf) 40567082317424560751826641617006 3312235311 3125000000000000000000000000000000000000000000000000000000000000000000000000000000000000000000000000 (0) 1 (0) false 3 .leaf) 40567082317489124290113923186739 1 1000000000000000000000000000000000000000000000000000000000000000000000000000000000000000000000000 (0) 1 (-1) false 3 (.node .leaf 40567082317489124290113923186867 1 1000000000000000000000000000000000000000000000000000000000000000000000000000000000000000000000000 (0) 1 (-1) false 3 .leaf)) 40567082317498347728121475629107 1 1000000000000000000000000000000000000000000000000000000000000000000000000000000000000000000000000 (0) 1 (0) false 3 (.node (.node (.node .leaf 40567082317498347728121475629235 1 1000000000000000000000000000000000000 (0) 1 (0) false 3 .leaf) 40567082317498347728121479823470 473176473 500000000000000000000000000000000000000000000000000000000000000000000000000000000000000000000000000 (0) 1 (0) false 3 .leaf) 40567121002995448121768397504627 604800000000000 1 (0) 1 (0) false 0 (.node .leaf 40567121003133798398856018264186 473176473 16000000000000000000000000000000000000000000000000000000000000000000000000000000000000000000000000000000 (0) 1 (0) false 3 .leaf))))
def table75 : Table := .node table73 40567024289049782787913537290419 1 1000000000000000000000000000000000000000000000000000000000000000000000000000000000000000000000000000000000000000000000 (0) 1 (-1) false 3 table74
def table76 : Table := .node table72 40566927574993437055587113238707 1 1000000000000000000000000000000000 (0) 1 (0) false 3 table75
def table77 : Table := .node table69 40566753489509391847924523073715 1 100000000000000000000000000000000000000000000000000000000000000000000000000000000000000000 (0) 1 (0) false 3 table76
def table78 : Table := .node (.node (.node (.node (.node (.node .leaf 40567159688455655018471815643315 1 1000000000000000000000000000000000000000000000000000000 (0) 1 (0) false 3 .leaf) 40567159688594005656199252410465 1 10000000000000000000 (0) 1 (0) false 6 .leaf) 40567159688594005656199252410471 1 10000000000000000000 (101325) 1 (0) false 6 (.node (.node .leaf 40567159688612452158380418531428 5225796 625 (0) 1 (0) false 5 .leaf) 40567159688621675772309816737907 31557600000000000 1 (0) 1 (0) false 0 .leaf)) 40567159688741579626381104382003 1 1000000000000000000000000000000000000000000000000000000000000000000000000000000000000000000000000000000000000000000 (0) 1 (-1) false 3 (.node (.node (.node .leaf 40567159688741579626381104382131 1 1000000000000000000000000000000000000000000000000000000000000000000000000000000000000000000000000000000000000000000 (0) 1 (-1) false 3 .leaf) 40567159688750803064388656824371 1 1000000000000000000000000000000000000000000000000000000000000000000000000000000000000000000000000000000000000000000 (0) 1 (0) false 3 .leaf) 40567159688750803064388656824499 1 1000000000000000000000000000000000000000000000000000000 (0) 1 (0) false 3 (.node .leaf 40567179031268768852538610942003 1 1000000000000000000000000000000000000000000000000000000000000000000000000000000000000000000000000000000000000000 (0) 1 (0) false 3 .leaf))) 40567179031268768852538610942131 1 1000000000000000000000000000000000000000000000000000 (0) 1 (0) false 3 (.node (.node (.node (.node .leaf 40567179031407119490266047709281 1 10000000000000000 (0) 1 (0) false 6 .leaf) 40567179031407119490266047709287 1 10000000000000000 (101325) 1 (0) false 6 .leaf) 40567179031554693460447899680819 1 1000000000000000000000000000000000000000000000000000000000000000000000000000000000000000000000000000000000000000 (0) 1 (-1) false 3 (.node .leaf 40567179031554693460447899680947 1 1000000000000000000000000000000000000000000000000000000000000000000000000000000000000000000000000000000000000000 (0) 1 (-1) false 3 .leaf)) 40567179031563916898455452123187 1 1000000000000000000000000000000000000000000000000000000000000000000000000000000000000000000000000000000000000000 (0) 1 (0) false 3 (.node (.node (.node .leaf 40567179031563916898455452123315 1 1000000000000000000000000000000000000000000000000000 (0) 1 (0) false 3 .leaf) 40568320257242485062479533572147 1 1000000000000000000000000000000000000000000000000000000000000000000000000000000000000000000000000 (0) 1 (0) false 3 .leaf) 40568320257242485062479533572275 1 1000000000000000000000000000000000000 (0) 1 (0) false 3 (.node .leaf 40568320257380835700206970339425 1 10 (0) 1 (0) false 6 .leaf)))) 40568320257380835700206970339431 1 10 (101325) 1 (0) false 6 (.node (.node (.node (.node (.node .leaf 40568320257528409670388822310963 1 1000000000000000000000000000000000000000000000000000000000000000000000000000000000000000000000000 (0) 1 (-1) false 3 .leaf) 40568320257528409670388822311091 1 1000000000000000000000000000000000000000000000000000000000000000000000000000000000000000000000000 (0) 1 (-1) false 3 .leaf) 40568320257537633108396374753331 1 1000000000000000000000000000000000000000000000000000000000000000000000000000000000000000000000000 (0) 1 (0) false 3 (.node .leaf 40568320257537633108396374753459 1 1000000000000000000000000000000000000 (0) 1 (0) false 3 .leaf)) 85072538842446336281386088410174718030 127 50000 (0) 1 (0) false 4 (.node (.node (.node .leaf 85072538842446336281386088410241826926 127 50000 (0) 1 (0) false 4 .leaf) 85072579407284886554638240133557518401 1 1 (0) 1 (0) false 11 .leaf) 85072579407284886554638240133557518407 1 1 (0) 1 (0) false 11 (.node .leaf 85072579407284886683765527814342705217 1 1 (0) 1 (0) false 11 .leaf))) 85072579407284886683765527814342705223 1 1 (0) 1 (0) false 11 (.node (.node (.node (.node .leaf 85072579407284886849786286050465808481 1 1 (0) 1 (0) false 11 .leaf) 85072579407284886849786286050465808487 1 1 (0) 1 (0) false 11 .leaf) 85072579407284886978913573731250995297 1 1 (0) 1 (0) false 11 (.node .leaf 85072579407284886978913573731250995303 1 1 (0) 1 (0) false 11 .leaf)) 85073228444972487930634054557610541125 1 1 (0) 1 (0) false 22 (.node (.node (.node .leaf 85073228445591458245424790611968393317 1 1 (0) 1 (0) false 22 .leaf) 85073269009559581495055620132019634253 1 1 (0) 1 (0) false 10 .leaf) 85073269009559581495055646520298700877 1 1 (0) 1 (0) false 10 (.node .leaf 85073269009559581495055694898856460364 9936705933 62500000000000000000000000000000000000000000000000000000000000000000000000000000000000000000000000000 (0) 1 (0) false 3 .leaf))))
def table79 : Table := .node (.node (.node (.node (.node (.node .leaf 85073309574514188204268694186795991112 2529285264 625 (0) 1 (0) false 5 .leaf) 85073309574514189384860314904207294536 2529285264 625 (0) 1 (0) false 5 .leaf) 85073309574610902269837864520772485197 1 1 (0) 1 (0) false 5 (.node (.node .leaf 85073350139275367215842071635428376645 315576000000000000 1 (0) 1 (0) false 0 .leaf) 85073390704655516376185484077015498849 100000000000000000000000 1 (0) 1 (0) false 6 .leaf)) 85073390704752229962139286504302706796 1000000000000000000 1 (0) 1 (0) false 3 (.node (.node (.node .leaf 85073431268836410708419011710073962579 5 9 (-160) 9 (0) false 1 .leaf) 85073431269049181191502646174780751955 473176473 16000000000000000000000000000000000000000000000000000000000000000000000000000000000000000000000000000000 (0) 1 (0) false 3 .leaf) 85073431269203923871657246671853584468 580644 625 (0) 1 (0) false 5 (.node .leaf 85073431269203925052248867389264887892 580644 625 (0) 1 (0) false 5 .leaf))) 85073431269455381023209747764431814771 5 9 (-160) 9 (0) false 1 (.node (.node (.node (.node .leaf 85073471833268761703366379657064611923 1 1 (0) 1 (0) false 3 .leaf) 85073471833307447237360318625953611859 1 1 (0) 1 (0) false 16 .leaf) 85073471833655617956419675761982570574 473176473 125000000000000000000000000000000000000000000000000000000000000000000000000000000000000000000000000000 (0) 1 (0) false 3 (.node .leaf 85073471833810360461330348296357544011 454609 3200000000000000000000000000000000000000000000000000000000000000000000000000000000000000000000000000 (0) 1 (0) false 3 .leaf)) 85073471833984445677897749297958486099 3981988955361 58908100000000000000000000000000000000000000000000000000000000000000000000000000000000000000000000000000000000 (0) 1 (0) false 3 (.node (.node (.node .leaf 85073471834293930982867179866020642913 100000000000000 1 (0) 1 (0) false 6 .leaf) 85073471834390644568820982293307850860 1000000000 1 (0) 1 (0) false 3 .leaf) 85073512398706938786542103993295831117 100000000 1 (0) 1 (0) false 5 (.node .leaf 85073552963545488902996785954595799118 16129 2500 (0) 1 (0) false 5 .leaf)))) 85073552963545490083588406672007102542 16129 2500 (0) 1 (0) false 5 (.node (.node (.node (.node (.node .leaf 85073593528384039333046244712296480851 1 1 (0) 1 (0) false 19 .leaf) 85073593529003009647836980766654333043 1 1 (0) 1 (0) false 19 .leaf) 85073634093009818422238447587626582094 1 1 (-5463) 20 (0) false 1 (.node .leaf 85073634093048503762541542996313112652 1000 1 (0) 1 (0) false 3 .leaf)) 85073634093048503780988243089553358898 196133 2 (0) 1 (0) false 6 (.node (.node (.node .leaf 85073634093048503780988243089553359026 196133 2 (0) 1 (0) false 6 .leaf) 85073634093048503780988287069955555411 10 1 (0) 1 (0) false 16 .leaf) 85073634093106532220329815658683433011 1 1 (0) 1 (0) false 10 (.node .leaf 85073634093106532220329815658683433139 1 1 (0) 1 (0) false 10 .leaf))) 85073634093106532220329956396238897203 1 1 (0) 1 (0) false 10 (.node (.node (.node (.node .leaf 85073634093570760196230571444030931041 100000000 1 (0) 1 (0) false 6 .leaf) 85073634093628788737029183641984434286 1 1 (-5463) 20 (0) false 1 .leaf) 85073634093667473782184373871318138988 1000 1 (0) 1 (0) false 3 (.node .leaf 85073634093667473800631073964558385202 196133 2 (0) 1 (0) false 6 .leaf)) 85073674657770997018759933844233650227 1 144 (0) 1 (0) false 10 (.node (.node (.node .leaf 85073674657770997018759947038360600626 5000000000000000 725188688661 (0) 1 (0) false 6 .leaf) 85073674657770997018759947038360600754 5000000000000000 725188688661 (0) 1 (0) false 6 .leaf) 85073674657770997018759991018838294594 15625 12632814 (0) 1 (0) false 10 (.node .leaf 85073674657770997018760017407083806771 1 1 (0) 1 (0) false 10 .leaf))))
def table80 : Table := .node table78 85073309574475502541147630264758829145 1 1 (0) 1 (0) false 12 table79
def table81 : Table := .node (.node (.node (.node (.node (.node .leaf 85073674657906396885800893788559769683 473176473 1000000000000000000000000000000000000000000000000000000000000000000000000000000000000000000000000000000 (0) 1 (0) false 3 .leaf) 85073674657906397051821533277376741459 1 1000000000000000000000000000000000000000000000000000000000000000000000000000000000000000000000 (0) 1 (0) false 3 .leaf) 85073674657906397051821590451954122835 1 1000000000000000000000000000000000000000000000000000000000000000000000000000000000000000000000 (0) 1 (0) false 3 (.node (.node .leaf 85073715222300062125393261940673871961 1 1 (0) 1 (0) false 12 .leaf) 85073715222725604050791007198637981769 647497027584 25 (0) 1 (0) false 5 .leaf)) 85073715222725604299822219319499030597 60000000000 1 (0) 1 (0) false 0 (.node (.node (.node .leaf 85073715222725605231382627916049285193 647497027584 25 (0) 1 (0) false 5 .leaf) 85073715222802975893542457289778135148 9936705933 62500000000000000000000000000000000000000000000000000000000000000000000000000000000000000000000 (0) 1 (0) false 3 .leaf) 85073715222802975893542457289778135151 9936705933 62500000000000000000000000000000000000000000000000000000000000000000000000000000000000000000000 (0) 1 (0) false 3 (.node .leaf 85073715222802975893542457289778135159 9936705933 62500000000000000000000000000000000000000000000000000000000000000000000000000000000000000000000 (0) 1 (0) false 3 .leaf))) 85073715222841661178505219322199146579 2629800000000000 1 (0) 1 (0) false 0 (.node (.node (.node (.node .leaf 85073715223209174802912267233036075105 100000000000 1 (0) 1 (0) false 6 .leaf) 85073715223305888388866069660323283052 1000000 1 (0) 1 (0) false 3 .leaf) 85073715224775942203964022490472120409 1 1 (0) 1 (0) false 12 (.node .leaf 85073755786945184442750904201839116338 10 1 (0) 1 (0) false 16 .leaf)) 85073755786945184737898809381259051058 10 1 (0) 1 (0) false 16 (.node (.node (.node .leaf 85073755787467440433718074880456392782 1 1 (0) 1 (0) false 9 .leaf) 85073755788086410748508810934814244974 1 1 (0) 1 (0) false 9 .leaf) 85073796352596132663869844745179103315 473176473 16000000000000000000000000000000000000000000000000000000000000000000000000000000000000000000000000000000 (0) 1 (0) false 3 (.node .leaf 85073836917028483741827569819938979907 30856804799935500 1 (0) 1 (0) false 4 .leaf)))) 85073836917028483751050871488041189452 1 1 (0) 1 (0) false 6 (.node (.node (.node (.node (.node .leaf 85073836917183226209844758604962332747 454609 800000000000000000000000000000000000000000000000000000000000000000000000000000000000000000000000000 (0) 1 (0) false 3 .leaf) 85073836917299283153091340875402838099 473176473 1000000000000000000000000000000000000000000000000000000000000000000000000000000000000000000000000000000 (0) 1 (0) false 3 .leaf) 85073836917376654294866076360889073748 1 1 (0) 1 (0) false 10 (.node .leaf 85073836917647454065841607542399041644 1 1 (0) 1 (0) false 6 .leaf)) 85073836917666796712934810916543791201 100000000000000000000 1 (0) 1 (0) false 6 (.node (.node (.node .leaf 85073836917763510298888613343830999148 1000000000000000 1 (0) 1 (0) false 3 .leaf) 85073877482234547150647770025801285715 473176473 500000000000000000000000000000000000000000000000000000000000000000000000000000000000000000000000000000 (0) 1 (0) false 3 .leaf) 85073877482486004016275658811046363233 100000000000000000000000000000000000 1 (0) 1 (0) false 6 (.node .leaf 85073877482582717602229461238333571180 1000000000000000000000000000000 1 (0) 1 (0) false 3 .leaf))) 85073918046724926501926076337184833604 158080329 625 (0) 1 (0) false 5 (.node (.node (.node (.node .leaf 85073918046724927682517697054596137028 158080329 625 (0) 1 (0) false 5 .leaf) 85073918047305211319616506705548935265 100000000000000000000000000000000 1 (0) 1 (0) false 6 .leaf) 85073918047401924905570309132836143212 1000000000000000000000000000 1 (0) 1 (0) false 3 (.node .leaf 85073958611563476765954851625639084100 1000000000 1 (0) 1 (0) false 0 .leaf)) 85073958611640848036856923170417934414 1 1 (0) 1 (0) false 25 (.node (.node (.node .leaf 85073958611795590200502790758726631501 1000000 1 (0) 1 (0) false 5 .leaf) 85073958611795590200502799554861596754 10117141056 25 (0) 1 (0) false 5 .leaf) 85073958611795590200502825943107108929 5827473248256 25 (0) 1 (0) false 5 (.node .leaf 85073958611795590615554554407447167045 647497027584 25 (0) 1 (0) false 5 .leaf))))
def table82 : Table := .node (.node (.node (.node (.node (.node .leaf 85073958612259818351647659224775786606 1 1 (0) 1 (0) false 25 .leaf) 85073999176382683921721606192989470789 16129 250000 (0) 1 (0) false 5 .leaf) 85073999176382685102313226910400774213 16129 250000 (0) 1 (0) false 5 (.node .leaf 85073999176440712361063108393375367240 16129 2500000000 (0) 1 (0) false 5 .leaf)) 85073999176440713541654729110786670664 16129 2500000000 (0) 1 (0) false 5 (.node (.node (.node .leaf 85073999176576112301891128195431792723 6145149 5890810000000000000000000000000000000000000000000000000000000000000000000000000000000000000000000 (0) 1 (0) false 3 .leaf) 85073999176943625926298202494554079329 100000000000000000 1 (0) 1 (0) false 6 .leaf) 85073999177040339512252004921841287276 1000000000000 1 (0) 1 (0) false 3 (.node .leaf 85073999177195082616681864249789644915 6145149 5890810000000000000000000000000000000000000000000000000000000000000000000000000000000000000000000 (0) 1 (0) false 3 .leaf))) 85074039741317948408116876441947209811 3312235311 3125000000000000000000000000000000000000000000000000000000000000000000000000000000000000000000000000 (0) 1 (0) false 3 (.node (.node (.node (.node .leaf 85074039741317948583361059491460153452 454609 3200000000000000000000000000000000000000000000000000000000000000000000000000000000000000000000000000 (0) 1 (0) false 3 .leaf) 85074039741317948666371407823157330036 454609 800000000000000000000000000000000000000000000000000000000000000000000000000000000000000000000000000 (0) 1 (0) false 3 .leaf) 85074039741317948703264922358855499891 3312235311 3125000000000000000000000000000000000000000000000000000000000000000000000000000000000000000000000000 (0) 1 (0) false 3 (.node .leaf 85074039741472690913027548976309600339 473176473 500000000000000000000000000000000000000000000000000000000000000000000000000000000000000000000000000 (0) 1 (0) false 3 .leaf)) 85074039741472691088271732025822543980 473176473 4000000000000000000000000000000000000000000000000000000000000000000000000000000000000000000000000000000 (0) 1 (0) false 3 (.node (.node (.node .leaf 85074039741472691171282080357519720564 473176473 1000000000000000000000000000000000000000000000000000000000000000000000000000000000000000000000000000000 (0) 1 (0) false 3 .leaf) 85074039741472691208175594893217890419 473176473 500000000000000000000000000000000000000000000000000000000000000000000000000000000000000000000000000 (0) 1 (0) false 3 .leaf) 85074080306214526890126106299014840399 1 1 (0) 1 (0) false 21 (.node .leaf 85074080306833497204916842353372692591 1 1 (0) 1 (0) false 21 .leaf)))) 85074202000459377625312011598717517892 5225796 625 (0) 1 (0) false 5 (.node (.node (.node (.node (.node .leaf 85074202000459378805903632316128821316 5225796 625 (0) 1 (0) false 5 .leaf) 85074202001039662443002441967066939489 100000000000000000000000000000 1 (0) 1 (0) false 6 .leaf) 85074202001136376028956244394354147436 1000000000000000000000000 1 (0) 1 (0) false 3 (.node .leaf 85074242565858869746343289861569511521 100000000000000000000000000 1 (0) 1 (0) false 6 .leaf)) 85074242565955583332297092288856719468 1000000000000000000000 1 (0) 1 (0) false 3 (.node (.node (.node .leaf 85074526519593320869729225123087515745 1 10000000000000 (0) 1 (0) false 6 .leaf) 85074526519690034455683027550374723692 1 1000000000000000000 (0) 1 (0) false 3 .leaf) 85074567084393185516753268908182470772 1 1 (0) 1 (0) false 10 (.node .leaf 85074567084393185516753488810392682605 1 1 (0) 1 (0) false 10 .leaf))) 85074567084393185516753515198671749229 1 1 (0) 1 (0) false 10 (.node (.node (.node (.node .leaf 85074567084393185516753563577296617580 9936705933 62500000000000000000000000000000000000000000000000000000000000000000000000000000000000000000000000000 (0) 1 (0) false 3 .leaf) 85074567084393185516753567975229882477 1 1 (0) 1 (0) false 10 .leaf) 85074607649231735476410920912092659809 1000 1 (0) 1 (0) false 6 (.node .leaf 85074607649309106267697593763846160505 1 1 (0) 1 (0) false 12 .leaf)) 85074607649328449062364723339379867756 1 100 (0) 1 (0) false 3 (.node (.node (.node .leaf 85074607649347791847808397315131047986 1987543976517 244140625000000000000000000000000000000000000000000000000000000000000000000000000000000000000000000 (0) 1 (0) false 3 .leaf) 85074607649347791921595122921307635816 1987543976517 244140625000000000000000000000000000000000000000000000000000000000000000000000000000000000000000000 (0) 1 (0) false 3 .leaf) 85074607649347791930818516948394967144 2529285264 625 (0) 1 (0) false 5 (.node .leaf 85074607649347793111410137665806270568 2529285264 625 (0) 1 (0) false 5 .leaf))))
def table83 : Table := .node table81 85073958611853619073342822671760490579 3312235311 500000000000000000000000000000000000000000000000000000000000000000000000000000000000000000000000000000 (0) 1 (0) false 3 table82
def table84 : Table := .node table80 85073674657829025624122137106054119493 603504 125 (0) 1 (0) false 4 table83
def table85 : Table := .node (.node (.node (.node (.node (.node .leaf 85074607649444505913377567649118027954 1 1000000000000000000000000000000000000000000000000000000000000000000000000000000000000000000000000 (0) 1 (0) false 3 .leaf) 85074607649444505987164293255284129901 1 1000000000000000000000000000000000000000000000000000000000000000000000000000000000000000000000000 (0) 1 (0) false 3 .leaf) 85074607649444505996387687282371461229 1 1 (0) 1 (0) false 5 (.node (.node .leaf 85074607649444507167755913972695433325 1 1000000000000000000000000000000000000000000000000000000000000000000000000000000000000000000000000 (0) 1 (0) false 3 .leaf) 85074648214031599837510594282425155635 1 100000000000000000000000000000000000000000000000000000000000000000000000000000000000000000 (0) 1 (0) false 3 .leaf)) 85074648214031599837510594282425155763 1 100000000000000000000000000000 (0) 1 (0) false 3 (.node (.node (.node .leaf 85074648214031599975861232009861922913 1000000 1 (0) 1 (0) false 6 .leaf) 85074648214031599975861232009861922919 1000000 1 (101325) 1 (0) false 6 .leaf) 85074648214031600123435202191713894451 1 100000000000000000000000000000000000000000000000000000000000000000000000000000000000000000 (0) 1 (-1) false 3 (.node .leaf 85074648214031600123435202191713894579 1 100000000000000000000000000000000000000000000000000000000000000000000000000000000000000000 (0) 1 (-1) false 3 .leaf))) 85074648214031600132658640199266336819 1 100000000000000000000000000000000000000000000000000000000000000000000000000000000000000000 (0) 1 (0) false 3 (.node (.node (.node (.node .leaf 85074648214031600132658640199266336947 1 100000000000000000000000000000 (0) 1 (0) false 3 .leaf) 85074648214050942779751768806595231841 10000 1 (0) 1 (0) false 6 .leaf) 85074648214108971237539940313868533861 315576000000000000 1 (0) 1 (0) false 0 (.node .leaf 85074648214147656365705571233882439788 1 10 (0) 1 (0) false 3 .leaf)) 85074648214360427789573091885053902952 473176473 256000000000000000000000000000000000000000000000000000000000000000000000000000000000000000000000000000000 (0) 1 (0) false 3 (.node (.node (.node .leaf 85074729343670014730116880388514119795 5 9 (-160) 9 (0) false 1 .leaf) 85074729343689357386433464595600375905 1 10000000000 (0) 1 (0) false 6 .leaf) 85074729343786070972387267022887583852 1 1000000000000000 (0) 1 (0) false 3 (.node .leaf 85074729343882784918052609673868083315 473176473 16000000000000000000000000000000000000000000000000000000000000000000000000000000000000000000000000000000 (0) 1 (0) false 3 .leaf)))) 85074729344037527515196962994347049010 55306341 1953125000000000000000000000000000000000000000000000000000000000000000000000000000000000000000000000 (0) 1 (0) false 3 (.node (.node (.node (.node (.node .leaf 85074729344037527515196962994347049138 55306341 1953125000000000000000000000000000000000000000000000000000000000000000000000000000000000000000000000 (0) 1 (0) false 3 .leaf) 85074729344037527588983675406365229172 55306341 1953125000000000000000000000000000000000000000000000000000000000000000000000000000000000000000000000 (0) 1 (0) false 3 .leaf) 85074729344037527598207069433452560500 580644 625 (0) 1 (0) false 5 (.node .leaf 85074729344037528778798690150863863924 580644 625 (0) 1 (0) false 5 .leaf)) 85074769907483395705421558198055207027 1 1 (0) 1 (0) false 3 (.node (.node (.node .leaf 85074769907522081239415497166877098099 1 1 (0) 1 (0) false 16 .leaf) 85074769908489221978117544440422727790 473176473 125000000000000000000000000000000000000000000000000000000000000000000000000000000000000000000000000000 (0) 1 (0) false 3 .leaf) 85074769908643964483028216974730592331 454609 3200000000000000000000000000000000000000000000000000000000000000000000000000000000000000000000000000 (0) 1 (0) false 3 (.node .leaf 85074769908643964483028216974730592339 473176473 4000000000000000000000000000000000000000000000000000000000000000000000000000000000000000000000000000000 (0) 1 (0) false 3 .leaf))) 85074769908643964483028216974797701227 454609 3200000000000000000000000000000000000000000000000000000000000000000000000000000000000000000000000000 (0) 1 (0) false 3 (.node (.node (.node (.node .leaf 85074769908818049699595617976398643315 3981988955361 58908100000000000000000000000000000000000000000000000000000000000000000000000000000000000000000000000000000000 (0) 1 (0) false 3 .leaf) 85074810473327771993115160384605519969 10000000 1 (0) 1 (0) false 6 .leaf) 85074810473424485579068962811892727916 100 1 (0) 1 (0) false 3 (.node .leaf 85074810473540542513091926754894807149 100000000 1 (0) 1 (0) false 5 .leaf)) 85074851038379092546536515471209922610 2048383 125000000000000000000000000000000000000000000000000000000000000000000000000000000000000000000000000000 (0) 1 (0) false 3 (.node (.node (.node .leaf 85074851038379092546536515471209922738 2048383 125000000000000000000000000000000000000000000000000000000000000000000000000000000000000000000000000000 (0) 1 (0) false 3 .leaf) 85074851038379092620323214689107443822 2048383 125000000000000000000000000000000000000000000000000000000000000000000000000000000000000000000000000000 (0) 1 (0) false 3 .leaf) 85074851038379092629546608716194775150 16129 2500 (0) 1 (0) false 5 (.node .leaf 85074851038379093800914835406518747246 2048383 125000000000000000000000000000000000000000000000000000000000000000000000000000000000000000000000000000 (0) 1 (0) false 3 .leaf))))
def table86 : Table := .node (.node (.node (.node (.node (.node .leaf 85074891603217643354744113390736638067 1 1 (0) 1 (0) false 19 .leaf) 85074932167321165927237089020321202227 1 1 (0) 1 (0) false 10 .leaf) 85074932167321165927237089020321202355 1 1 (0) 1 (0) false 10 (.node (.node .leaf 85074932167785393903137704068113236065 100000000 1 (0) 1 (0) false 6 .leaf) 85074932167843422443936316266066739310 1 1 (-5463) 20 (0) false 1 .leaf)) 85074932167882107489091506495400444012 1000 1 (0) 1 (0) false 3 (.node (.node (.node .leaf 85074932167882107507538206588640690226 196133 2 (0) 1 (0) false 6 .leaf) 85074932167882107507538206588640690354 196133 2 (0) 1 (0) false 6 .leaf) 85074932167882107507538250568975777907 10 1 (0) 1 (0) false 16 (.node .leaf 85074972732604600745309897343320981555 1 144 (0) 1 (0) false 10 .leaf))) 85074972732604600745309910537447931954 5000000000000000 725188688661 (0) 1 (0) false 6 (.node (.node (.node (.node .leaf 85074972732604600745309910537447932082 5000000000000000 725188688661 (0) 1 (0) false 6 .leaf) 85074972732604600745309954517925625954 15625 12632814 (0) 1 (0) false 10 .leaf) 85074972732604600745309980906171138099 1 1 (0) 1 (0) false 10 (.node .leaf 85074972732662629645820005784494276709 603504 125 (0) 1 (0) false 4 .leaf)) 85074972732740000907498762466999926899 473176473 1000000000000000000000000000000000000000000000000000000000000000000000000000000000000000000000000000000 (0) 1 (0) false 3 (.node (.node (.node .leaf 85074972732740001073519401955816898675 1 1000000000000000000000000000000000000000000000000000000000000000000000000000000000000000000000 (0) 1 (0) false 3 .leaf) 85074972732740001073519459130394280051 1 1000000000000000000000000000000000000000000000000000000000000000000000000000000000000000000000 (0) 1 (0) false 3 .leaf) 85075013296514695832300535302311641209 1 1 (0) 1 (0) false 12 (.node .leaf 85075013297423808509819399857118380129 100 1 (0) 1 (0) false 6 .leaf)))) 85075013297520522095773202284405588076 1 1000 (0) 1 (0) false 3 (.node (.node (.node (.node (.node .leaf 85075013297559207694330754307419275314 1987543976517 476837158203125000000000000000000000000000000000000000000000000000000000000000000000000000000 (0) 1 (0) false 3 .leaf) 85075013297559207768117435933149626473 1987543976517 476837158203125000000000000000000000000000000000000000000000000000000000000000000000000000000 (0) 1 (0) false 3 .leaf) 85075013297559207777340829960236957801 647497027584 25 (0) 1 (0) false 5 (.node .leaf 85075013297559208321520087997939187813 60000000000 1 (0) 1 (0) false 0 .leaf)) 85075013297559208957932450677648261225 647497027584 25 (0) 1 (0) false 5 (.node (.node (.node .leaf 85075013297675265200203088000639303795 2629800000000000 1 (0) 1 (0) false 0 .leaf) 85075013298990575910871295852109889657 1 1 (0) 1 (0) false 12 .leaf) 85075053862243015813160247751620952161 1 10000 (0) 1 (0) false 6 (.node .leaf 85075053862301044455415943558896549998 1 1 (0) 1 (0) false 9 .leaf))) 85075053862339729399114050178908160108 1 1000000000 (0) 1 (0) false 3 (.node (.node (.node (.node .leaf 85075094427429736685567713423619260531 473176473 16000000000000000000000000000000000000000000000000000000000000000000000000000000000000000000000000000000 (0) 1 (0) false 3 .leaf) 85075134991862087763525438498379137123 30856804799935500 1 (0) 1 (0) false 4 .leaf) 85075134991881430419841943540626096225 1 10000000 (0) 1 (0) false 6 (.node .leaf 85075134991978144005795745967913304172 1 1000000000000 (0) 1 (0) false 3 .leaf)) 85075134992016830231542627283335381067 454609 800000000000000000000000000000000000000000000000000000000000000000000000000000000000000000000000000 (0) 1 (0) false 3 (.node (.node (.node .leaf 85075134992016830231542627283335381075 473176473 1000000000000000000000000000000000000000000000000000000000000000000000000000000000000000000000000000000 (0) 1 (0) false 3 .leaf) 85075134992016830231542627283402489963 454609 800000000000000000000000000000000000000000000000000000000000000000000000000000000000000000000000000 (0) 1 (0) false 3 .leaf) 85075134992132887174789209553842995315 473176473 1000000000000000000000000000000000000000000000000000000000000000000000000000000000000000000000000000000 (0) 1 (0) false 3 (.node .leaf 85075134992210258316563804301840875636 1 1 (0) 1 (0) false 10 .leaf))))
def table87 : Table := .node table85 85074851038379093810138229433606078574 16129 2500 (0) 1 (0) false 5 table86
def table88 : Table := .node (.node (.node (.node (.node (.node .leaf 85075134992210258316564050592330154093 1 1 (0) 1 (0) false 10 .leaf) 85075175556700637723182791435128668257 1 10000000000000000000000000 (0) 1 (0) false 6 .leaf) 85075175556797351309136593862415876204 1 1000000000000000000000000000000 (0) 1 (0) false 3 (.node (.node .leaf 85075175557068151172345638704241442931 473176473 500000000000000000000000000000000000000000000000000000000000000000000000000000000000000000000000000000 (0) 1 (0) false 3 .leaf) 85075216121519845026523639329631240289 1 10000000000000000000000 (0) 1 (0) false 6 .leaf)) 85075216121558530145465845436177711154 1 1 (0) 1 (0) false 3 (.node (.node (.node .leaf 85075216121558530219252505071696478308 1 1 (0) 1 (0) false 3 .leaf) 85075216121558530228475899098783809636 158080329 625 (0) 1 (0) false 5 .leaf) 85075216121558531409067519816195113060 158080329 625 (0) 1 (0) false 5 (.node .leaf 85075216121616558612477441756918448236 1 1000000000000000000000000000 (0) 1 (0) false 3 .leaf))) 85075256686397080787652720304079241316 1000000000 1 (0) 1 (0) false 0 (.node (.node (.node (.node .leaf 85075256686629193927052754257813962861 1000000 1 (0) 1 (0) false 5 .leaf) 85075256686629193927052763053948928114 10117141056 25 (0) 1 (0) false 5 .leaf) 85075256686629193927052789442194440289 5827473248256 25 (0) 1 (0) false 5 (.node .leaf 85075256686629194637252423085887324261 647497027584 25 (0) 1 (0) false 5 .leaf)) 85075256686687223095040691350200647795 3312235311 500000000000000000000000000000000000000000000000000000000000000000000000000000000000000000000000000000 (0) 1 (0) false 3 (.node (.node (.node .leaf 85075297251216287565261384088073273394 2048383 125000000000000000000000000000000000000000000000000000000000000000000000000000000000000000000000000000000 (0) 1 (0) false 3 .leaf) 85075297251216287639048034927501115493 2048383 125000000000000000000000000000000000000000000000000000000000000000000000000000000000000000000000000000000 (0) 1 (0) false 3 .leaf) 85075297251216287648271428954588446821 16129 250000 (0) 1 (0) false 5 (.node .leaf 85075297251216288828863049671999750245 16129 250000 (0) 1 (0) false 5 .leaf)))) 85075297251274316004602886288465461298 2048383 125000000000000000000000000000000000000000000000000000000000000000000000000000000000000000000000000000000000000 (0) 1 (0) false 3 (.node (.node (.node (.node (.node .leaf 85075297251274316078389537127887011944 2048383 125000000000000000000000000000000000000000000000000000000000000000000000000000000000000000000000000000000000000 (0) 1 (0) false 3 .leaf) 85075297251274316087612931154974343272 16129 2500000000 (0) 1 (0) false 5 .leaf) 85075297251274317268204551872385646696 16129 2500000000 (0) 1 (0) false 5 (.node .leaf 85075297251409716323588996873871949939 6145149 5890810000000000000000000000000000000000000000000000000000000000000000000000000000000000000000000 (0) 1 (0) false 3 .leaf)) 85075337815977466936546183013138956385 1 10 (0) 1 (0) false 6 (.node (.node (.node .leaf 85075337816074180522499985440426164332 1 1000000 (0) 1 (0) false 3 .leaf) 85075337816151552429814745120387367027 3312235311 3125000000000000000000000000000000000000000000000000000000000000000000000000000000000000000000000000 (0) 1 (0) false 3 .leaf) 85075337816306294934725417654749757555 473176473 500000000000000000000000000000000000000000000000000000000000000000000000000000000000000000000000000 (0) 1 (0) false 3 (.node .leaf 85075500075254296149909574591149244513 1 10000000000000000000 (0) 1 (0) false 6 .leaf))) 85075500075292981268851811484021293106 1493271207 1953125000000000000000000000000000000000000000000000000000000000000000000000000000000000000000000000 (0) 1 (0) false 3 (.node (.node (.node (.node .leaf 85075500075292981268851811484021293234 1493271207 1953125000000000000000000000000000000000000000000000000000000000000000000000000000000000000000000000 (0) 1 (0) false 3 .leaf) 85075500075292981342638440333229162596 1493271207 1953125000000000000000000000000000000000000000000000000000000000000000000000000000000000000000000000 (0) 1 (0) false 3 .leaf) 85075500075292981351861834360316493924 5225796 625 (0) 1 (0) false 5 (.node .leaf 85075500075292982523230061050640466020 1493271207 1953125000000000000000000000000000000000000000000000000000000000000000000000000000000000000000000000 (0) 1 (0) false 3 .leaf)) 85075500075292982532453455077727797348 5225796 625 (0) 1 (0) false 5 (.node (.node (.node .leaf 85075500075351009735863377018436452460 1 1000000000000000000000000 (0) 1 (0) false 3 .leaf) 85075540640073503453250422485651816545 1 10000000000000000 (0) 1 (0) false 6 .leaf) 85075540640170217039204224912939024492 1 1000000000000000000000 (0) 1 (0) false 3 (.node .leaf 85077933964406734350360448261303566433 1 10 (0) 1 (0) false 6 .leaf))))
def table89 : Table := .node (.node (.node (.node (.node (.node .leaf 178411491179384730055452830110941690019709010 100000 1 (0) 1 (0) false 6 .leaf) 178411576249935895451519040668526623565283411 9936705933 62500000000000000000000000000000000000000000000000000000000000000000000000000000000000000000000000000 (0) 1 (0) false 3 .leaf) 178411576249976460154669142508344429309329497 1 1 (0) 1 (0) false 12 (.node .leaf 178411661320527625570078000159115144769568837 523 125 (0) 1 (0) false 19 .leaf)) 178411661320689884846907250415955287805526099 1 1 (0) 1 (0) false 1 (.node (.node (.node .leaf 178411661320689884885592885867048234802741337 3155760000000000000 1 (0) 1 (0) false 0 .leaf) 178411661321095533213065537285362964267794498 1 1 (0) 1 (0) false 27 .leaf) 178411661321825700403682021856983823209726053 523 125 (0) 1 (0) false 19 (.node .leaf 178411661321987959680511272113823966245683315 1 1 (0) 1 (0) false 1 .leaf))) 178411661322393608046669558983231642707951714 1 1 (0) 1 (0) false 27 (.node (.node (.node (.node .leaf 178411746391119355824036337851774133212282957 1000000 1 (0) 1 (0) false 5 .leaf) 178411746391281614907437632214381890937815123 315576000000000000 1 (0) 1 (0) false 0 .leaf) 178411746391281614984809041467047182696710227 10404660096024101 24000000000000000 (0) 1 (0) true 10 (.node .leaf 178411916532302816389982347245805030749503567 5 9 (-160) 9 (0) false 1 .leaf)) 178411916533073547355293738172362292241367129 1 1 (0) 1 (0) false 12 (.node (.node (.node .leaf 178411916533114112774128201925214869259288658 10117141056 25 (0) 1 (0) false 5 .leaf) 178411916533114112774128515519903704725585991 25146 125 (0) 1 (0) false 4 .leaf) 178411916533600891223586368943673709189660783 5 9 (-160) 9 (0) false 1 (.node .leaf 178412001601961555492688150222816396504465458 1 100000 (0) 1 (0) false 9 .leaf)))) 178412001602894546508541435863593271844405331 473176473 125000000000000000000000000000000000000000000000000000000000000000000000000000000000000000000000000000 (0) 1 (0) false 3 (.node (.node (.node (.node (.node .leaf 178412001603219065062199862590402816137756755 454609 3200000000000000000000000000000000000000000000000000000000000000000000000000000000000000000000000000 (0) 1 (0) false 3 .leaf) 178412086673648535845901270833044828834496581 100000000 1 (0) 1 (0) false 5 .leaf) 178412341885504855704593082636161098964795442 1 1 (0) 1 (0) false 9 (.node .leaf 178412341885504855762621521977804036824367187 1000 1 (0) 1 (0) false 3 .leaf)) 178412341885626550258929104344832057733546035 1 1 (0) 1 (0) false 10 (.node (.node (.node .leaf 178412341885626550258929104344832057733546163 1 1 (0) 1 (0) false 10 .leaf) 178412341885626550258929113568270065285988403 1 1 (0) 1 (0) false 10 .leaf) 178412341885626550258929113568270065285988531 1 1 (0) 1 (0) false 10 (.node .leaf 178412341885626550258929399492877974641836083 1 1 (0) 1 (0) false 10 .leaf))) 178412341885626550258929408716315982194278451 1 1 (0) 1 (0) false 10 (.node (.node (.node (.node .leaf 178412341886802929977255524032982577814962291 1000 1 (0) 1 (0) false 3 .leaf) 178412426956015456745678720598406957595885633 5827473248256 25 (0) 1 (0) false 5 .leaf) 178412426956664494201166597482638408165621837 157788000000000000 1 (0) 1 (0) false 0 (.node .leaf 178412512026769446508580766890326031014559827 60000000000 1 (0) 1 (0) false 0 .leaf)) 178412767238544637212428355197913966045036627 454609 800000000000000000000000000000000000000000000000000000000000000000000000000000000000000000000000000 (0) 1 (0) false 3 (.node (.node (.node .leaf 178412767238950285307787147792986751075614804 1 1 (0) 1 (0) false 10 .leaf) 178412767238950285307787203133218972204269652 1 1 (0) 1 (0) false 10 .leaf) 178412852309623145026075272205149217910423634 3312235311 250000000000000000000000000000000000000000000000000000000000000000000000000000000000000000000000000000 (0) 1 (0) false 3 (.node .leaf 178412852309623145026075272205149217943978059 454609 400000000000000000000000000000000000000000000000000000000000000000000000000000000000000000000000000 (0) 1 (0) false 3 .leaf))))
def table90 : Table := .node table88 85077933964503447936314250688590774380 1 1000000 (0) 1 (0) false 3 table89
def table91 : Table := .node table87 85075134992210258316564024204051087469 1 1 (0) 1 (0) false 10 table90
def table92 : Table := .node table84 85074607649444505913377567649118027826 1 1000000000000000000000000000000000000000000000000000000000000000000000000000000000000000000000000 (0) 1 (0) false 3 table91
def table93 : Table := .node table77 40567159688455655018471815643187 1 1000000000000000000000000000000000000000000000000000000000000000000000000000000000000000000000000000000000000000000 (0) 1 (0) false 3 table92
def table94 : Table := .node (.node (.node (.node (.node (.node .leaf 178412937380701653961605598845902096103899237 5 9 (-5463) 20 (0) false 1 .leaf) 178413022450076438846289286508269508055007321 1 1 (0) 1 (0) false 12 .leaf) 178413022450157568426675453848463096674254937 1 1 (0) 1 (0) false 36 (.node (.node .leaf 178413022450157568426675748996412256498483283 1000000000 1 (0) 1 (0) false 0 .leaf) 178413022450482086670848870753901183932301378 1 1 (0) 1 (0) false 30 .leaf)) 178413022450482086670848870753901183970050137 1 1 (0) 1 (0) false 12 (.node (.node (.node .leaf 178413022450482089146728949324661733768298585 1 1 (0) 1 (0) false 12 .leaf) 178413022450644346450591427991233678215741522 10000 1 (0) 1 (0) false 5 .leaf) 178413022450766040695442190847347447417536601 1 1 (0) 1 (0) false 12 (.node .leaf 178413192591584418043265113435044362068164677 1 1 (0) 1 (0) false 3 .leaf))) 178413192591584418662235428225780416426016869 1 1 (0) 1 (0) false 3 (.node (.node (.node (.node .leaf 178413192591584418700921054453391375443427444 454609 400000000000000000000000000000000000000000000000000000000000000000000000000000000000000000000000000 (0) 1 (0) false 3 .leaf) 178413192591908936596923540161827518088740933 1 1 (0) 1 (0) false 3 .leaf) 178413192591908937215893854952563572446593125 1 1 (0) 1 (0) false 3 (.node .leaf 178413192591908937254579481180174531464003700 473176473 500000000000000000000000000000000000000000000000000000000000000000000000000000000000000000000000000000 (0) 1 (0) false 3 .leaf)) 178414213439618172396764263657764643252732018 100000 1 (0) 1 (0) false 6 (.node (.node (.node .leaf 178414213439618172396764383561601122364817522 100000 1 (0) 1 (0) false 6 .leaf) 178414213439618172396764844730202965103607922 100000 1 (0) 1 (0) false 6 .leaf) 178414298510169337792830612565692635095761012 1 1 (0) 1 (0) false 10 (.node .leaf 178414298510169337792830667905924856224415860 1 1 (0) 1 (0) false 10 .leaf)))) 178414298510169337792830769363254756151132275 9936705933 62500000000000000000000000000000000000000000000000000000000000000000000000000000000000000000000000000 (0) 1 (0) false 3 (.node (.node (.node (.node (.node .leaf 178414298510169337792830778586389298481725556 1 1 (0) 1 (0) false 10 .leaf) 178414298510169337792830778586609200691937389 1 1 (0) 1 (0) false 10 .leaf) 178414298510169337792830778586635588971004013 1 1 (0) 1 (0) false 10 (.node .leaf 178414298510209902495980576055167382542352505 1 1 (0) 1 (0) false 12 .leaf)) 178414383580761067911389728853843277355417701 523 125 (0) 1 (0) false 19 (.node (.node (.node .leaf 178414383580923327188218979110683420391374963 1 1 (0) 1 (0) false 1 .leaf) 178414383580923327226904614561776367388590201 3155760000000000000 1 (0) 1 (0) false 0 .leaf) 178414468651352797952577334431945951398592609 1000000 1 (0) 1 (0) false 6 (.node .leaf 178414468651352798049290920385748378685800556 10 1 (0) 1 (0) false 3 .leaf))) 178414468651352798165347771398597086445305965 1000000 1 (0) 1 (0) false 5 (.node (.node (.node (.node .leaf 178414468651515057248749360909110023523663987 315576000000000000 1 (0) 1 (0) false 0 .leaf) 178414468651515057326120770161775315282559091 10404660096024101 24000000000000000 (0) 1 (0) true 10 .leaf) 178414638793306989077635152076495108024828025 1 1 (0) 1 (0) false 12 (.node .leaf 178414638793347555115439635472037822492311666 10117141056 25 (0) 1 (0) false 5 .leaf)) 178414638793347555115440244214631837311434855 25146 125 (0) 1 (0) false 4 (.node (.node (.node .leaf 178414723860896923619366172010271167519653938 1 100000 (0) 1 (0) false 9 .leaf) 178414723861018618270416231618167873497727091 1 1 (0) 1 (0) false 3 .leaf) 178414723863127988849853164558321404430254195 473176473 125000000000000000000000000000000000000000000000000000000000000000000000000000000000000000000000000000 (0) 1 (0) false 3 (.node .leaf 178414723863452507403511591284990211168141427 454609 3200000000000000000000000000000000000000000000000000000000000000000000000000000000000000000000000000 (0) 1 (0) false 3 .leaf))))
def table95 : Table := .node (.node (.node (.node (.node (.node .leaf 178414808933881978187212999527772961420345445 100000000 1 (0) 1 (0) false 5 .leaf) 178415064144561917766637106489737428787527731 1 1 (0) 1 (0) false 10 .leaf) 178415064144561917766637106489737428787527859 1 1 (0) 1 (0) false 10 (.node (.node .leaf 178415064144561917766637115713175436339970227 1 1 (0) 1 (0) false 10 .leaf) 178415064145738297426934791688058356612726834 1 1 (0) 1 (0) false 9 .leaf)) 178415064145738297484963231029842031960653939 1000 1 (0) 1 (0) false 3 (.node (.node (.node .leaf 178415149216248899086990154145229910828908641 5827473248256 25 (0) 1 (0) false 5 .leaf) 178415149216897936542478326177366540751470701 157788000000000000 1 (0) 1 (0) false 0 .leaf) 178415234287002888849892495585054163600408691 60000000000 1 (0) 1 (0) false 0 (.node .leaf 178415404428673127149611701341769979398193227 454609 16000000000000000000000000000000000000000000000000000000000000000000000000000000000000000000000000000 (0) 1 (0) false 3 .leaf))) 178415489498615820354281966187191792532717684 1 100 (0) 1 (0) false 32 (.node (.node (.node (.node .leaf 178415489498778079553740083892501361075421299 454609 800000000000000000000000000000000000000000000000000000000000000000000000000000000000000000000000000 (0) 1 (0) false 3 .leaf) 178415489498778079553740083892642098630885491 454609 800000000000000000000000000000000000000000000000000000000000000000000000000000000000000000000000000 (0) 1 (0) false 3 .leaf) 178415489499183727649098876487574146173108340 1 1 (0) 1 (0) false 10 (.node .leaf 178415489499183727649098931827806367301763188 1 1 (0) 1 (0) false 10 .leaf)) 178415574569856587367387000899877350462718027 454609 400000000000000000000000000000000000000000000000000000000000000000000000000000000000000000000000000 (0) 1 (0) false 3 (.node (.node (.node .leaf 178415574569856587367387000899877350462718035 473176473 500000000000000000000000000000000000000000000000000000000000000000000000000000000000000000000000000000 (0) 1 (0) false 3 .leaf) 178415574569856587367387000899877350496272498 3312235311 250000000000000000000000000000000000000000000000000000000000000000000000000000000000000000000000000000 (0) 1 (0) false 3 .leaf) 178415574569856587367387000899877350529826923 454609 400000000000000000000000000000000000000000000000000000000000000000000000000000000000000000000000000 (0) 1 (0) false 3 (.node .leaf 178415659639637021469313305842761550249590885 5 9 (-5463) 20 (0) false 1 .leaf)))) 178415744710309881187600720055092461288030329 1 1 (0) 1 (0) false 12 (.node (.node (.node (.node (.node .leaf 178415744710391010767986887395286049907277945 1 1 (0) 1 (0) false 36 .leaf) 178415744710391010767987477691140389084332147 1000000000 1 (0) 1 (0) false 0 .leaf) 178415744710715528393190284658033999648653410 1 1 (0) 1 (0) false 30 (.node .leaf 178415744710715528393190284658033999753511033 1 1 (0) 1 (0) false 12 .leaf)) 178415744710715530869070363228794549551759481 1 1 (0) 1 (0) false 12 (.node (.node (.node .leaf 178415744710877788791903156685961810801590386 10000 1 (0) 1 (0) false 5 .leaf) 178415744710999483036753624394170400650559609 1 1 (0) 1 (0) false 12 .leaf) 178415914851817860384576842129772494654013541 1 1 (0) 1 (0) false 3 (.node .leaf 178415914852142378938235268856555650674589797 1 1 (0) 1 (0) false 3 .leaf))) 374156372362007433467590891781741259173829537693765 10000 1 (0) 1 (0) false 5 (.node (.node (.node (.node .leaf 374156372362007433467590891781851939713038600372307 3155760000000000000 1 (0) 1 (0) false 0 .leaf) 374156550767628739305089628083648160721426949603405 1000000 1 (0) 1 (0) false 5 .leaf) 374156907580998115367696360122570861134484642725966 1 1 (0) 1 (0) false 32 (.node .leaf 374156907581253327832488681008974100380638534172754 10117141056 25 (0) 1 (0) false 5 .leaf)) 374156907581253327832491156889052671141188332421202 10117141056 25 (0) 1 (0) false 5 (.node (.node (.node .leaf 374157085985513503999480689304206357235038332911691 454609 100000000000000000000000000000000000000000000000000000000000000000000000000000000000000000000000000 (0) 1 (0) false 3 .leaf) 374157085985513503999480689304206357235038332911699 473176473 125000000000000000000000000000000000000000000000000000000000000000000000000000000000000000000000000000 (0) 1 (0) false 3 .leaf) 374157799609870279150598792436618190973999649914930 1 1 (0) 1 (0) false 19 (.node .leaf 374157799610040421713263153402483385740967752499277 6145149 5890810000000000000000000000000000000000000000000000000000000000000000000000000000000000000000000000 (0) 1 (0) false 3 .leaf))))
def table96 : Table := .node table94 178414723863452507403511591285130948723605619 454609 3200000000000000000000000000000000000000000000000000000000000000000000000000000000000000000000000000 (0) 1 (0) false 3 table95
def table97 : Table := .node (.node (.node (.node (.node (.node .leaf 374157978015661727145113794345440894684445450174529 5827473248256 25 (0) 1 (0) false 5 .leaf) 374157978015661727145116270225519465444995248422977 5827473248256 25 (0) 1 (0) false 5 .leaf) 374157978016512433589759177055166688361620881539150 3312235311 3125000000000000000000000000000000000000000000000000000000000000000000000000000000000000000000000000 (0) 1 (0) false 3 (.node (.node .leaf 374157978017022857342964932243910102961350166708307 157788000000000000 1 (0) 1 (0) false 0 .leaf) 374158870046830797837723809255573092639280744890451 3312235311 250000000000000000000000000000000000000000000000000000000000000000000000000000000000000000000000000000 (0) 1 (0) false 3 .leaf)) 374158870046830797837723809255573092709649474388051 454609 400000000000000000000000000000000000000000000000000000000000000000000000000000000000000000000000000 (0) 1 (0) false 3 (.node (.node (.node .leaf 374159226858073409025944050999285375765158584909871 1 1 (0) 1 (0) false 30 .leaf) 374159226858073409025944457198167075472185332072530 1 1 (0) 1 (0) false 30 .leaf) 374159226858073409025944457198167075511767782129729 1 1 (0) 1 (0) false 30 (.node .leaf 374159226858668903776527981419896394046581717860399 1 1 (0) 1 (0) false 30 .leaf))) 374159226858668903776528387618778093815181153927241 1 1 (0) 1 (0) false 30 (.node (.node (.node (.node .leaf 374159226858668904222741070071291907910108566257753 1 1 (0) 1 (0) false 12 .leaf) 374159583669826445143750578655822703830992492167246 454609 100000000000000000000000000000000000000000000000000000000000000000000000000000000000000000000000000 (0) 1 (0) false 3 .leaf) 374159583669826445468269519170530153999975688699987 1 1 (0) 1 (0) false 3 (.node .leaf 374159583669826446441825412259844401699670932324462 454609 100000000000000000000000000000000000000000000000000000000000000000000000000000000000000000000000000 (0) 1 (0) false 3 .leaf)) 374159583669826446766344352774551851868654128857203 1 1 (0) 1 (0) false 3 (.node (.node (.node .leaf 374159583670081657000071288431476079298838116958291 1 1 (0) 1 (0) false 32 .leaf) 374159583670507009877592455582749453045856028590158 473176473 125000000000000000000000000000000000000000000000000000000000000000000000000000000000000000000000000000 (0) 1 (0) false 3 .leaf) 374159583670507010202111396097456903214839225122899 1 1 (0) 1 (0) false 3 (.node .leaf 374159583670507011175667289186771150914534468747374 473176473 125000000000000000000000000000000000000000000000000000000000000000000000000000000000000000000000000000 (0) 1 (0) false 3 .leaf)))) 374159583670507011500186229701478601083517665280115 1 1 (0) 1 (0) false 3 (.node (.node (.node (.node (.node .leaf 374159762076128315958481112954730648936183268114509 1 1 (0) 1 (0) false 22 .leaf) 374159762078850576191923454266164195618399012782189 1 1 (0) 1 (0) false 22 .leaf) 374161902949198647090910652974464658449497864536180 1 1 (0) 1 (0) false 10 (.node .leaf 374161902949198647090910652974519998681718993191028 1 1 (0) 1 (0) false 10 .leaf)) 374162081355500517540557466237347751882507654529125 10000 1 (0) 1 (0) false 5 (.node (.node (.node .leaf 374162081355500517540557466237458432421716717207667 3155760000000000000 1 (0) 1 (0) false 0 .leaf) 374162259761121823378055583568939862834788264050797 1000000 1 (0) 1 (0) false 5 .leaf) 374162616573980773253568510522077842738837662466123 454609 16000000000000000000000000000000000000000000000000000000000000000000000000000000000000000000000000000 (0) 1 (0) false 3 (.node .leaf 374162616574491199440662934578177353843162759561326 1 1 (0) 1 (0) false 32 .leaf))) 374162616574746411905454462409455063515396394975282 1987543976517 244140625000000000000000000000000000000000000000000000000000000000000000000000000000000000000000 (0) 1 (0) false 3 (.node (.node (.node (.node .leaf 374162616574746411905454617151406571799748779442290 1987543976517 244140625000000000000000000000000000000000000000000000000000000000000000000000000000000000000000 (0) 1 (0) false 3 .leaf) 374162616574746411905454636494265802493999848620146 10117141056 25 (0) 1 (0) false 5 .leaf) 374162616574746411905457112374344373254549646868594 10117141056 25 (0) 1 (0) false 5 (.node .leaf 374162794979006588072447263759812849943716382638155 454609 100000000000000000000000000000000000000000000000000000000000000000000000000000000000000000000000000 (0) 1 (0) false 3 .leaf)) 374162794979006588072447263759812849943716382638163 473176473 125000000000000000000000000000000000000000000000000000000000000000000000000000000000000000000000000000 (0) 1 (0) false 3 (.node (.node (.node .leaf 374162794979006588072447263759812849943716449747051 454609 100000000000000000000000000000000000000000000000000000000000000000000000000000000000000000000000000 (0) 1 (0) false 3 .leaf) 374162794979006588072447263759812849943716449747059 473176473 125000000000000000000000000000000000000000000000000000000000000000000000000000000000000000000000000000 (0) 1 (0) false 3 .leaf) 374163508603363361925491152258222628504136843264050 1 1 (0) 1 (0) false 19 (.node .leaf 374163508603533505786229727858089878449645869334637 6145149 5890810000000000000000000000000000000000000000000000000000000000000000000000000000000000000000000000 (0) 1 (0) false 3 .leaf))))
def table98 : Table := .node (.node (.node (.node (.node (.node .leaf 374163687009154811218079730487873366103555695444065 53663687365959 476837158203125000000000000000000000000000000000000000000000000000000000000000000000000000000 (0) 1 (0) false 3 .leaf) 374163687009154811218079749830732596797806764621921 5827473248256 25 (0) 1 (0) false 5 .leaf) 374163687009154811218082225710811167558356562870369 5827473248256 25 (0) 1 (0) false 5 (.node .leaf 374163687010005517662725751510478033165119645548654 3312235311 3125000000000000000000000000000000000000000000000000000000000000000000000000000000000000000000000000 (0) 1 (0) false 3 .leaf)) 374163687010005517662725751510597937001598757634158 3312235311 3125000000000000000000000000000000000000000000000000000000000000000000000000000000000000000000000000 (0) 1 (0) false 3 (.node (.node (.node .leaf 374163687010005517662725751511059105603441496424558 3312235311 3125000000000000000000000000000000000000000000000000000000000000000000000000000000000000000000000000 (0) 1 (0) false 3 .leaf) 374163687010515941415931506699516595670028283543667 157788000000000000 1 (0) 1 (0) false 0 .leaf) 374164579040323881910690383711179585277590035759219 454609 400000000000000000000000000000000000000000000000000000000000000000000000000000000000000000000000000 (0) 1 (0) false 3 (.node .leaf 374164579040323881910690383711179585347958861725811 3312235311 250000000000000000000000000000000000000000000000000000000000000000000000000000000000000000000000000000 (0) 1 (0) false 3 .leaf))) 374164579040323881910690383711179585418327591223411 454609 400000000000000000000000000000000000000000000000000000000000000000000000000000000000000000000000000 (0) 1 (0) false 3 (.node (.node (.node (.node .leaf 374164935851566491800836817019771513143060013777010 1 1 (0) 1 (0) false 30 .leaf) 374164935851566491800836817019771513182642396725345 1 1 (0) 1 (0) false 30 .leaf) 374164935852161987849494962074089438618679917936745 1 1 (0) 1 (0) false 30 (.node .leaf 374164935852161988295707025556583610023469880705145 1 1 (0) 1 (0) false 12 .leaf)) 374165292663319529216717153111429196539670609002606 454609 100000000000000000000000000000000000000000000000000000000000000000000000000000000000000000000000000 (0) 1 (0) false 3 (.node (.node (.node .leaf 374165292663319529541236093626136646708653805535347 1 1 (0) 1 (0) false 3 .leaf) 374165292663574741073037862887082572007516233793651 1 1 (0) 1 (0) false 32 .leaf) 374165292664000093950559030038355945754534145425518 473176473 125000000000000000000000000000000000000000000000000000000000000000000000000000000000000000000000000000 (0) 1 (0) false 3 (.node .leaf 374165292664000094275077970553063395923517341958259 1 1 (0) 1 (0) false 3 .leaf)))) 784662410466595832894205391348316924869160045124819877957 100000 1 (101325) 1 (0) false 6 (.node (.node (.node (.node (.node .leaf 784662784611728613111425173882094359073078256479210831955 3155760000000000000 1 (0) 1 (0) false 0 .leaf) 784662784614583107475989546668036089187886522154528800836 1 1 (0) 1 (0) false 3 .leaf) 784663158756147768886795278779645394179466984566711910482 1 10000000000000000000000000000000000000000000000000000000000000000000000000000000000000000000000 (0) 1 (0) false 3 (.node .leaf 784663158756147768886795278779645394179466984566739173445 1 10000000000000000000000000000000000000000000000000000000000000000000000000000000000000000000000 (0) 1 (0) false 3 .leaf)) 784663158756147769227078010783821323644218892035892969539 1 1 (0) 1 (0) false 1 (.node (.node (.node .leaf 784663158756147769227078010783821323644218892035892969542 5 9 (-160) 9 (0) false 1 .leaf) 784663158756147769227078010783821323644218892035892969547 1 1 (-5463) 20 (0) false 1 .leaf) 784663158756147769227078010783821323644218892035892969554 5 9 (-5463) 20 (0) false 1 (.node .leaf 784664281188691615939518926535694970488175109942418604115 454609 100000000000000000000000000000000000000000000000000000000000000000000000000000000000000000000000000 (0) 1 (0) false 3 .leaf))) 784664281188691615939518926535694970488175109942435381331 473176473 125000000000000000000000000000000000000000000000000000000000000000000000000000000000000000000000000000 (0) 1 (0) false 3 (.node (.node (.node (.node .leaf 784664281188691616705154049283517048208650199265206861906 100000 1 (101325) 1 (0) false 6 .leaf) 784664281188691616705154049283517048208650260837895766089 5000000000000000 725188688661 (73479500000000000) 725188688661 (0) false 6 .leaf) 784665777767795490476813248684324837373442004089363759187 6145149 5890810000000000000000000000000000000000000000000000000000000000000000000000000000000000000000000000 (0) 1 (0) false 3 (.node .leaf 784665777767795490476813248684382865785113478140113453125 1000 1 (0) 1 (0) false 19 .leaf)) 784665777773504483969897321650957321391606186818230288485 1000 1 (0) 1 (0) false 19 (.node (.node (.node .leaf 784666151913285083127630637679596930830949954961591500883 3312235311 3125000000000000000000000000000000000000000000000000000000000000000000000000000000000000000000000000 (0) 1 (0) false 3 .leaf) 784666526056633803133472165093460009631231399784580382797 6145149 5890810000000000000000000000000000000000000000000000000000000000000000000000000000000000000000000000000000000 (0) 1 (0) false 3 .leaf) 784666526056633803899107247276540251725096174738271633485 6145149 5890810000000000000000000000000000000000000000000000000000000000000000000000000000000000000000000000000000 (0) 1 (0) false 3 (.node .leaf 784666900200339337699678161030578774003077867409346920498 1 1 (0) 1 (0) false 6 .leaf))))
def table99 : Table := .node table97 374163687009154811218079575745977197954667414290482 53663687365959 476837158203125000000000000000000000000000000000000000000000000000000000000000000000000000000 (0) 1 (0) false 3 table98
def table100 : Table := .node table96 374157799612592538207661376736817479029803769135219 1000 1 (0) 1 (0) false 3 table99
def table101 : Table := .node (.node (.node (.node (.node (.node .leaf 784666900206048331192762233997153229609570435349975400498 1 1 (0) 1 (0) false 6 .leaf) 784666900206048331192762233997153229609570435349975400626 1 1 (0) 1 (0) false 6 .leaf) 784667648491675333393217317515026980666170989322436608069 5000000000000000 725188688661 (73479500000000000) 725188688661 (0) false 6 (.node (.node .leaf 784668770922970338459613381731142880191749896392985804878 473176473 500000000000000000000000000000000000000000000000000000000000000000000000000000000000000000000000000 (0) 1 (0) false 3 .leaf) 784668770923862365885576618441253324190633098424937873473 1 1 (0) 1 (0) false 30 .leaf)) 784668770923862365885577470302050478660644413526570434625 1 1 (0) 1 (0) false 30 (.node (.node (.node .leaf 784668770925111208892753209290698562401556206528642416713 1 1 (0) 1 (0) false 30 .leaf) 784668770925111208892754061151495717000694787320821317697 1 1 (0) 1 (0) false 30 .leaf) 784669519212343869086106813529215894984573566933524283475 454609 100000000000000000000000000000000000000000000000000000000000000000000000000000000000000000000000000 (0) 1 (0) false 3 (.node .leaf 784669519212343871808367046971557206713268295066110132339 454609 100000000000000000000000000000000000000000000000000000000000000000000000000000000000000000000000000 (0) 1 (0) false 3 .leaf))) 784669519213771116778812773410274180954023062069907030099 473176473 125000000000000000000000000000000000000000000000000000000000000000000000000000000000000000000000000000 (0) 1 (0) false 3 (.node (.node (.node (.node .leaf 784669519213771119501073006852615492682717790202492878963 473176473 125000000000000000000000000000000000000000000000000000000000000000000000000000000000000000000000000000 (0) 1 (0) false 3 .leaf) 784670267499398123998436947188291249465209158912905838674 3600 1 (0) 1 (0) false 19 .leaf) 784670267499398123998436947188484677596347499580858826834 3600 1 (0) 1 (0) false 19 (.node .leaf 784670267499398123998436947188581391791043878430783307860 1 1 (0) 1 (0) false 22 .leaf)) 784670267505107117491521020154246735052059177453573111922 3600 1 (0) 1 (0) false 19 (.node (.node (.node .leaf 784670267505107117491521020154440163183197518121526100082 3600 1 (0) 1 (0) false 19 .leaf) 784670267505107117491521020154498191622539020321911996530 3600 1 (0) 1 (0) false 19 .leaf) 784670267505107117491521020154536877082745991792097755252 1 1 (0) 1 (0) false 22 (.node .leaf 784670267505107117491521020155465332278230723661676937330 3600 1 (0) 1 (0) false 19 .leaf)))) 784674383093717841143994090826826358559242642578246467685 100000 1 (101325) 1 (0) false 6 (.node (.node (.node (.node (.node .leaf 784674383093717841143994618169476053502673665206779904101 100000 1 (101325) 1 (0) false 6 .leaf) 784674383093717841143996646410436418669716059931908505701 100000 1 (101325) 1 (0) false 6 .leaf) 784674757238850621361215171434818426470067986556719726707 3155760000000000000 1 (0) 1 (0) false 0 (.node .leaf 784674757241705115725779544220760156289728347052684869732 1 1 (0) 1 (0) false 3 .leaf)) 784674757241705115725779544220760156409632183531796955236 1 1 (0) 1 (0) false 3 (.node (.node (.node .leaf 784674757241705115725779544220760156870800785374535745636 1 1 (0) 1 (0) false 3 .leaf) 784675131383269777136585276332369461576456714644220805234 1 10000000000000000000000000000000000000000000000000000000000000000000000000000000000000000000000 (0) 1 (0) false 3 .leaf) 784675131383269777136585276332369461576456714644248068197 1 10000000000000000000000000000000000000000000000000000000000000000000000000000000000000000000000 (0) 1 (0) false 3 (.node .leaf 784675131383269777476868008336545391041208622113334755395 1 1 (0) 1 (0) false 1 .leaf))) 784675131383269777476868008336545391041208622113334755398 5 9 (-160) 9 (0) false 1 (.node (.node (.node (.node .leaf 784675131383269777476868008336545391041208622113334755403 1 1 (-5463) 20 (0) false 1 .leaf) 784675131383269777476868008336545391041208622113334755410 5 9 (-5463) 20 (0) false 1 .leaf) 784675131383269777476868008336545391041208622113334755427 1 1 (0) 1 (0) false 1 (.node .leaf 784675131383269777476868008336545391041208622113334755430 5 9 (-160) 9 (0) false 1 .leaf)) 784675131383269777476868008336545391041208622113334755435 1 1 (-5463) 20 (0) false 1 (.node (.node (.node .leaf 784675131383269777476868008336545391041208622113334755442 5 9 (-5463) 20 (0) false 1 .leaf) 784676253815813624189308924088419037885164699282372034675 454609 100000000000000000000000000000000000000000000000000000000000000000000000000000000000000000000000000 (0) 1 (0) false 3 .leaf) 784676253815813624189308924088419037885164699282388811891 473176473 125000000000000000000000000000000000000000000000000000000000000000000000000000000000000000000000000000 (0) 1 (0) false 3 (.node .leaf 784676253815813624189308924088419037885164831223788339275 454609 100000000000000000000000000000000000000000000000000000000000000000000000000000000000000000000000000 (0) 1 (0) false 3 .leaf))))
def table102 : Table := .node (.node (.node (.node (.node (.node .leaf 784676253815813624189308924088419037885164840019927498867 454609 100000000000000000000000000000000000000000000000000000000000000000000000000000000000000000000000000 (0) 1 (0) false 3 .leaf) 784676253815813624189308924088419037885164840019944276083 473176473 125000000000000000000000000000000000000000000000000000000000000000000000000000000000000000000000000000 (0) 1 (0) false 3 .leaf) 784676253815813624954944046836241115310492024163362930802 100000 1 (101325) 1 (0) false 6 (.node (.node .leaf 784676253815813624954944046836241115310492085736051834985 5000000000000000 725188688661 (73479500000000000) 725188688661 (0) false 6 .leaf) 784676253815813624954944046836241115430395860642475016306 100000 1 (101325) 1 (0) false 6 .leaf)) 784676253815813624954944046836241115430395922215163920489 5000000000000000 725188688661 (73479500000000000) 725188688661 (0) false 6 (.node (.node (.node .leaf 784676253815813624954944046836241115891564462485213806706 100000 1 (101325) 1 (0) false 6 .leaf) 784676253815813624954944046836241115891564524057902710889 5000000000000000 725188688661 (73479500000000000) 725188688661 (0) false 6 .leaf) 784677750394917498726603246237048904770431734166872653939 6145149 5890810000000000000000000000000000000000000000000000000000000000000000000000000000000000000000000000 (0) 1 (0) false 3 (.node .leaf 784677750394917498726603246237106933182103208217622347877 1000 1 (0) 1 (0) false 19 .leaf))) 784678124540407091377420635231702028208296994901650833523 3312235311 3125000000000000000000000000000000000000000000000000000000000000000000000000000000000000000000000000 (0) 1 (0) false 3 (.node (.node (.node (.node .leaf 784678498683755811383262162646184077028221129862089277549 6145149 5890810000000000000000000000000000000000000000000000000000000000000000000000000000000000000000000000000000000 (0) 1 (0) false 3 .leaf) 784678498683755812148897244829264319122085904815780528237 6145149 5890810000000000000000000000000000000000000000000000000000000000000000000000000000000000000000000000000000 (0) 1 (0) false 3 .leaf) 784679621118797341643006016993536414356253586775863197797 5000000000000000 725188688661 (73479500000000000) 725188688661 (0) false 6 (.node .leaf 784679621118797341643006544336186109299684609404396634213 5000000000000000 725188688661 (73479500000000000) 725188688661 (0) false 6 .leaf)) 784679621118797341643008572577146474466727004129525235813 5000000000000000 725188688661 (73479500000000000) 725188688661 (0) false 6 (.node (.node (.node .leaf 784680743550092346709403379283866947293591721291141873774 473176473 500000000000000000000000000000000000000000000000000000000000000000000000000000000000000000000000000 (0) 1 (0) false 3 .leaf) 784680743550092346709403379283866947413495557770253959278 473176473 500000000000000000000000000000000000000000000000000000000000000000000000000000000000000000000000000 (0) 1 (0) false 3 .leaf) 784680743550092346709403379283866947874664159612992749678 473176473 500000000000000000000000000000000000000000000000000000000000000000000000000000000000000000000000000 (0) 1 (0) false 3 (.node .leaf 784680743550984371413106382552255049878570931244798836833 1 1 (0) 1 (0) false 30 .leaf)))) 784680743550984371413108532486647868330994594012484075617 1 1 (0) 1 (0) false 30 (.node (.node (.node (.node (.node .leaf 784680743552233217142541908769207995796490898802716180585 1 1 (0) 1 (0) false 30 .leaf) 784680743552233217142544058703600814378041827260880650337 1 1 (0) 1 (0) false 30 .leaf) 784681491839465877335896811081939962381563297011033178227 454609 100000000000000000000000000000000000000000000000000000000000000000000000000000000000000000000000000 (0) 1 (0) false 3 (.node .leaf 784681491840893125028602770962998248351012792147415924851 473176473 125000000000000000000000000000000000000000000000000000000000000000000000000000000000000000000000000000 (0) 1 (0) false 3 .leaf)) 784682240126520132248226944740396346842556198852965171314 3600 1 (0) 1 (0) false 19 (.node (.node (.node .leaf 784682240126520132248226944740589774973694539520918159474 3600 1 (0) 1 (0) false 19 .leaf) 1645555558801615193483724903603799615975877872048004389557764173 1 1 (0) 1 (0) false 21 .leaf) 1645555558804234203882604847574443531177385395406325478401769541 101325 1 (0) 1 (0) false 6 (.node .leaf 1645555558813587820605733153393797168699944973889688550225477741 1 1 (0) 1 (0) false 21 .leaf))) 1645557128074055884443851526256695171275565710399871225352421445 1 1 (0) 1 (0) false 1 (.node (.node (.node (.node .leaf 1645557128074055884443851526256695171372279692958776790521741394 1 100000000000000000000000000000000000000000000000000000000000000000000000000000000000000000000000 (0) 1 (0) false 3 .leaf) 1645557128074055884443851526256695171372279692958776790549004357 1 100000000000000000000000000000000000000000000000000000000000000000000000000000000000000000000000 (0) 1 (0) false 3 .leaf) 1645557128074055884443851526256695171449651000754296900349329477 1 1 (0) 1 (0) false 16 (.node .leaf 1645557128080042193009486429773965220512554485028949941496578132 55306341 1953125000000000000000000000000000000000000000000000000000000000000000000000000000000000000000000000 (0) 1 (0) false 3 .leaf)) 1645557128080042193009486429773965220512554512699061653989228616 2048383 125000000000000000000000000000000000000000000000000000000000000000000000000000000000000000000000000000 (0) 1 (0) false 3 (.node (.node (.node .leaf 1645557128080042193009486429773965220512554549592527811194650693 1987543976517 476837158203125000000000000000000000000000000000000000000000000000000000000000000000000000000 (0) 1 (0) false 3 .leaf) 1645557128080042193009486429773965220512554595709414383730819155 1 1 (0) 1 (0) false 3 .leaf) 1645557128080042193009486429773965220512554614156127671137861717 2048383 125000000000000000000000000000000000000000000000000000000000000000000000000000000000000000000000000000000000000 (0) 1 (0) false 3 (.node .leaf 1645557128080042193009486429773965220512554660272957069092454468 1493271207 1953125000000000000000000000000000000000000000000000000000000000000000000000000000000000000000000000 (0) 1 (0) false 3 .leaf))))
def table103 : Table := .node table101 784676253815813624189308924088419037885164831223788339283 473176473 125000000000000000000000000000000000000000000000000000000000000000000000000000000000000000000000000000 (0) 1 (0) false 3 table102
def table104 : Table := .node (.node (.node (.node (.node (.node .leaf 1645557912711772805816480492483290897694257545618049016491147347 1 10000000000000000000000000000000000000000000000000000000000000000000000000000000000000000000000 (0) 1 (0) false 3 .leaf) 1645557912711772805816480492483290897694257545618106191068528723 1 10000000000000000000000000000000000000000000000000000000000000000000000000000000000000000000000 (0) 1 (0) false 3 .leaf) 1645557912719255696162079952611442475894824135581873867004575794 1 1 (0) 1 (0) false 16 (.node (.node .leaf 1645559481985710075702075180418672670477394452396354269475766356 5 9 (-160) 9 (0) false 1 .leaf) 1645559481997682702824083430208670223201461849386084346984661108 5 9 (-160) 9 (0) false 1 .leaf)) 1645561051266381946024519796377912060430612654774534582541746258 1 1 (0) 1 (0) false 20 (.node (.node (.node .leaf 1645561051278354573146528046167909613154680051764264660050641010 1 1 (0) 1 (0) false 20 .leaf) 1645563405177287848444429858105194284391426718913121984192708684 1000 1 (0) 1 (0) false 6 .leaf) 1645563405177287848444429858105194284662226056389943133116301391 20000 196133 (0) 1 (0) false 9 (.node .leaf 1645564189815004770887494934143667406684505375843163467350540370 157678841209680 1 (0) 1 (0) false 4 .leaf))) 1645564974451225118865241920381760631105696870120139894785310798 6145149 5890810000000000000000000000000000000000000000000000000000000000000000000000000000000000000000000 (0) 1 (0) false 3 (.node (.node (.node (.node .leaf 1645564974452721693508967417970079846118156192521032318943494227 6145149 5890810000000000000000000000000000000000000000000000000000000000000000000000000000000000000000000000000000000 (0) 1 (0) false 3 .leaf) 1645564974452721695114620561840490941927760296905963772558966873 9869233 1000000000000000000 (0) 1 (0) false 5 .leaf) 1645564974452721695114620561840490941985788893044715832706334803 6145149 5890810000000000000000000000000000000000000000000000000000000000000000000000000000000000000000000000000000 (0) 1 (0) false 3 (.node .leaf 1645564974452721695114620561840490942082502875603621397856780370 1 1000000000000000000000000000000000000000000000000000000000000000000000000000000000000000000000000 (0) 1 (0) false 3 .leaf)) 1645564974452721695114620561840490942082502875603621397884043333 1 1000000000000000000000000000000000000000000000000000000000000000000000000000000000000000000000000 (0) 1 (0) false 3 (.node (.node (.node .leaf 1645565759087445463453274530526358505528494316938512230051217476 1 1 (0) 1 (0) false 0 .leaf) 1645566543727781397544057878828588239302962291187063515240202309 1 1 (0) 1 (0) false 21 .leaf) 1645566543728155541784807777681526659728786819444030303748751436 9936705933 62500000000000000000000000000000000000000000000000000000000000000000000000000000000000000000000000000 (0) 1 (0) false 3 (.node .leaf 1645566543728155541784807777681729483824823280808011166874861646 1 1 (0) 1 (0) false 3 .leaf)))) 1645566543739754024666063406358352350304688274272801514521100389 1 1 (0) 1 (0) false 21 (.node (.node (.node (.node (.node .leaf 1645569682278649091241255122724229753479888678720342966671507539 473176473 500000000000000000000000000000000000000000000000000000000000000000000000000000000000000000000000000 (0) 1 (0) false 3 .leaf) 1645569682282016392084099846377100411216980751457501962636886084 158080329 625 (0) 1 (0) false 5 .leaf) 1645572036194418871645420824549429242975716772184628574526898244 1 1 (0) 1 (0) false 27 (.node .leaf 1645572036206391498767429074338128720866180442624535890503925860 1 1 (0) 1 (0) false 27 .leaf)) 1645580667223148377727668440522133914567117201817833412048715877 101325 1 (0) 1 (0) false 6 (.node (.node (.node .leaf 1645582236492970058288915119204385554665297516811379158999367781 1 1 (0) 1 (0) false 1 .leaf) 1645582236492970058288915119204385554762011499370284724168687730 1 100000000000000000000000000000000000000000000000000000000000000000000000000000000000000000000000 (0) 1 (0) false 3 .leaf) 1645582236492970058288915119204385554762011499370284724195950693 1 100000000000000000000000000000000000000000000000000000000000000000000000000000000000000000000000 (0) 1 (0) false 3 (.node .leaf 1645582236492970058288915119204385554839382807165804833996275813 1 1 (0) 1 (0) false 16 .leaf))) 1645582236498956366854550022721655603283316271797723757207879796 55306341 1953125000000000000000000000000000000000000000000000000000000000000000000000000000000000000000000000 (0) 1 (0) false 3 (.node (.node (.node (.node .leaf 1645582236498956366854550022721655603283316271797767737693962356 55306341 1953125000000000000000000000000000000000000000000000000000000000000000000000000000000000000000000000 (0) 1 (0) false 3 .leaf) 1645582236498956366854550022721655603283316299467879450186612840 2048383 125000000000000000000000000000000000000000000000000000000000000000000000000000000000000000000000000000 (0) 1 (0) false 3 .leaf) 1645582236498956366854550022721655603283316336361345607392034917 1987543976517 476837158203125000000000000000000000000000000000000000000000000000000000000000000000000000000 (0) 1 (0) false 3 (.node .leaf 1645582236498956366854550022721655603283316382478232179928203379 1 1 (0) 1 (0) false 3 .leaf)) 1645582236498956366854550022721655603283316400924945467335245941 2048383 125000000000000000000000000000000000000000000000000000000000000000000000000000000000000000000000000000000000000 (0) 1 (0) false 3 (.node (.node (.node .leaf 1645582236498956366854550022721655603283316447041774865289838692 1493271207 1953125000000000000000000000000000000000000000000000000000000000000000000000000000000000000000000000 (0) 1 (0) false 3 .leaf) 1645582236498956366854550022721655603534772842277566625546764404 55306341 1953125000000000000000000000000000000000000000000000000000000000000000000000000000000000000000000000 (0) 1 (0) false 3 .leaf) 1645582236498956366854550022721655603534772842277610606032846964 55306341 1953125000000000000000000000000000000000000000000000000000000000000000000000000000000000000000000000 (0) 1 (0) false 3 (.node .leaf 1645582236498956366854550022721655603534772869947722318525497448 2048383 125000000000000000000000000000000000000000000000000000000000000000000000000000000000000000000000000000 (0) 1 (0) false 3 .leaf))))
def table105 : Table := .node (.node (.node (.node (.node (.node .leaf 1645582236498956366854550022721655603534772971404788335674130549 2048383 125000000000000000000000000000000000000000000000000000000000000000000000000000000000000000000000000000000000000 (0) 1 (0) false 3 .leaf) 1645582236498956366854550022721655603534773017521617733628723300 1493271207 1953125000000000000000000000000000000000000000000000000000000000000000000000000000000000000000000000 (0) 1 (0) false 3 .leaf) 1645582236498956366854550022721655604501913497969269965311705204 55306341 1953125000000000000000000000000000000000000000000000000000000000000000000000000000000000000000000000 (0) 1 (0) false 3 (.node .leaf 1645582236498956366854550022721655604501913497969313945797787764 55306341 1953125000000000000000000000000000000000000000000000000000000000000000000000000000000000000000000000 (0) 1 (0) false 3 .leaf)) 1645582236498956366854550022721655604501913525639425658290438248 2048383 125000000000000000000000000000000000000000000000000000000000000000000000000000000000000000000000000000 (0) 1 (0) false 3 (.node (.node (.node .leaf 1645582236498956366854550022721655604501913562532891815495860325 1987543976517 476837158203125000000000000000000000000000000000000000000000000000000000000000000000000000000 (0) 1 (0) false 3 .leaf) 1645582236498956366854550022721655604501913627096491675439071349 2048383 125000000000000000000000000000000000000000000000000000000000000000000000000000000000000000000000000000000000000 (0) 1 (0) false 3 .leaf) 1645582236498956366854550022721655604501913673213321073393664100 1493271207 1953125000000000000000000000000000000000000000000000000000000000000000000000000000000000000000000000 (0) 1 (0) false 3 (.node .leaf 1645583021130686979661544085430981281083989352029556950138093683 1 10000000000000000000000000000000000000000000000000000000000000000000000000000000000000000000000 (0) 1 (0) false 3 .leaf))) 1645583021130686979661544085430981281083989352029614124715475059 1 10000000000000000000000000000000000000000000000000000000000000000000000000000000000000000000000 (0) 1 (0) false 3 (.node (.node (.node (.node .leaf 1645583021138169870007143545557834785069921939938343997216391218 1 1 (0) 1 (0) false 16 .leaf) 1645584590404624249547138773366363053867126258807862203122712692 5 9 (-160) 9 (0) false 1 .leaf) 1645588513596202022289493451052884667781158525324629917839655020 1000 1 (0) 1 (0) false 6 (.node .leaf 1645588513596202022289493451052884668051957862801451066763247727 20000 196133 (0) 1 (0) false 9 .leaf)) 1645589298233918944732558527091357789455267162611981263547924594 157678841209680 1 (0) 1 (0) false 4 (.node (.node (.node .leaf 1645590082870139292710305513329451014495428381383742649079431278 6145149 5890810000000000000000000000000000000000000000000000000000000000000000000000000000000000000000000 (0) 1 (0) false 3 .leaf) 1645590082870139292710305513329451014495428501287579128191516782 6145149 5890810000000000000000000000000000000000000000000000000000000000000000000000000000000000000000000 (0) 1 (0) false 3 .leaf) 1645590082870139292710305513329451014495428962456180970930307182 6145149 5890810000000000000000000000000000000000000000000000000000000000000000000000000000000000000000000 (0) 1 (0) false 3 (.node .leaf 1645590082871635867354031010917770229507887998932540252590440563 6145149 5890810000000000000000000000000000000000000000000000000000000000000000000000000000000000000000000000000000000 (0) 1 (0) false 3 .leaf)))) 1645590082871635868959684154788181325317492103317471706205913209 9869233 1000000000000000000 (0) 1 (0) false 5 (.node (.node (.node (.node (.node .leaf 1645590082871635868959684154788181325375520699456223766353281139 6145149 5890810000000000000000000000000000000000000000000000000000000000000000000000000000000000000000000000000000 (0) 1 (0) false 3 .leaf) 1645590082871635868959684154788181325472234682015129331503726706 1 1000000000000000000000000000000000000000000000000000000000000000000000000000000000000000000000000 (0) 1 (0) false 3 .leaf) 1645590082871635868959684154788181325472234682015129331530989669 1 1000000000000000000000000000000000000000000000000000000000000000000000000000000000000000000000000 (0) 1 (0) false 3 (.node .leaf 1645590867506359637298338123474048888918226123350020163698163812 1 1 (0) 1 (0) false 0 .leaf)) 1645591652147069715629868648370281675610810918858678783250006124 9936705933 62500000000000000000000000000000000000000000000000000000000000000000000000000000000000000000000000000 (0) 1 (0) false 3 (.node (.node (.node .leaf 1645591652147069715629868648370484499706847380222659646376116334 1 1 (0) 1 (0) false 3 .leaf) 1645591652147069715629869754287974168660817174826152936496693356 9936705933 62500000000000000000000000000000000000000000000000000000000000000000000000000000000000000000000000000 (0) 1 (0) false 3 .leaf) 1645591652147069715629874007817560680391610467008745833599336556 9936705933 62500000000000000000000000000000000000000000000000000000000000000000000000000000000000000000000000000 (0) 1 (0) false 3 (.node .leaf 1645592436783290062358778752514956534522467445401833359504572517 1 100 (0) 1 (0) false 32 .leaf))) 1645592436784786637716122396726285245849176126428338155228758127 55306341 1953125000000000000000000000000000000000000000000000000000000000000000000000000000000000000000000000 (0) 1 (0) false 3 (.node (.node (.node (.node .leaf 1645592436784786637716122396726285248421770270568269039003500655 55306341 1953125000000000000000000000000000000000000000000000000000000000000000000000000000000000000000000000 (0) 1 (0) false 3 .leaf) 1645592436784786637716123502643977738899182382395812308475445359 55306341 1953125000000000000000000000000000000000000000000000000000000000000000000000000000000000000000000000 (0) 1 (0) false 3 .leaf) 1645592436784786637716123502643977741471776526535743192250187887 55306341 1953125000000000000000000000000000000000000000000000000000000000000000000000000000000000000000000000 (0) 1 (0) false 3 (.node .leaf 1645592436784786637716127756173564250629975674578405205578088559 55306341 1953125000000000000000000000000000000000000000000000000000000000000000000000000000000000000000000000 (0) 1 (0) false 3 .leaf)) 1645592436784786637716127756173564253202569818718336089352831087 55306341 1953125000000000000000000000000000000000000000000000000000000000000000000000000000000000000000000000 (0) 1 (0) false 3 (.node (.node (.node .leaf 1645594790697563265086318715671920136250650465489160762868891763 473176473 500000000000000000000000000000000000000000000000000000000000000000000000000000000000000000000000000 (0) 1 (0) false 3 .leaf) 1645594790700930565929163439324790794606712262721104716931006564 158080329 625 (0) 1 (0) false 5 .leaf) 3450983422254762446173192115992280792033719102647884663796251007909971 1 100000000000000000000000000000000000000000000000000000000000000000000000000000000000000000000000 (0) 1 (0) false 3 (.node .leaf 3450983422254762446173192115992280792033719102647884663853425585291347 1 100000000000000000000000000000000000000000000000000000000000000000000000000000000000000000000000 (0) 1 (0) false 3 .leaf))))
def table106 : Table := .node table104 1645582236498956366854550022721655603534772906841188475730919525 1987543976517 476837158203125000000000000000000000000000000000000000000000000000000000000000000000000000000 (0) 1 (0) false 3 table105
def table107 : Table := .node table103 1645557128086028511565859776046692723999633107389601302861316197 1 1 (0) 1 (0) false 1 table106
def table108 : Table := .node table100 784666900200339337699678161030578774003077867409346920626 1 1 (0) 1 (0) false 6 table107
def table109 : Table := .node (.node (.node (.node (.node (.node .leaf 3450983422267316645154230485173330710128344663387432427709431822680147 55306341 1953125000000000000000000000000000000000000000000000000000000000000000000000000000000000000000000000 (0) 1 (0) false 3 .leaf) 3450983422267316645154230485173330710128344721415862545786818770501715 2048383 125000000000000000000000000000000000000000000000000000000000000000000000000000000000000000000000000000 (0) 1 (0) false 3 .leaf) 3450983422267316645154230485173330710128344798787031990849521043112018 1 1000000000000000000000000000000000000000000000000000000000000000000000000000000000000000000 (0) 1 (0) false 3 (.node (.node .leaf 3450983422267316645154230485173330710128344798787068884302484090126419 1987543976517 476837158203125000000000000000000000000000000000000000000000000000000000000000000000000000000 (0) 1 (0) false 3 .leaf) 3450983422267316645154230485173330710128344934186723787661600362594376 2048383 125000000000000000000000000000000000000000000000000000000000000000000000000000000000000000000000000000000 (0) 1 (0) false 3 .leaf)) 3450983422267316645154230485173330710128344934186751457782108975530067 2048383 125000000000000000000000000000000000000000000000000000000000000000000000000000000000000000000000000000000000000 (0) 1 (0) false 3 (.node (.node (.node .leaf 3450983422267316645154230485173330710128345030900752463361379072475219 1493271207 1953125000000000000000000000000000000000000000000000000000000000000000000000000000000000000000000000 (0) 1 (0) false 3 .leaf) 3450988358773926876428790898199159983813204421910153994566737864949829 473176473 16000000000000000000000000000000000000000000000000000000000000000000000000000000000000000000000000000000 (0) 1 (0) false 3 .leaf) 3450990004269853182000380214160476132345553198670938757707462220972121 9610517 80000000000 (0) 1 (0) false 10 (.node .leaf 3450991649777549048087814280114881384837308057180054139593820026699852 100 1 (0) 1 (0) false 6 .leaf))) 3450999877300335660478479823812450071044574402566191620628804110647379 6145149 5890810000000000000000000000000000000000000000000000000000000000000000000000000000000000000000000 (0) 1 (0) false 3 (.node (.node (.node (.node .leaf 3450999877303474208353016740504909260170205070577885821758142666506323 1 1000000000000000000000000000000000000000000000000000000000000000000000000000000000000000000000000 (0) 1 (0) false 3 .leaf) 3450999877303474208353016740504909260170205070577885821815317243887699 1 1000000000000000000000000000000000000000000000000000000000000000000000000000000000000000000000000 (0) 1 (0) false 3 .leaf) 3450999877303474208353016740504909260454158727657599955076490928848964 1000000 1 (0) 1 (0) false 0 (.node .leaf 3451001522801754428571961588242413792586092913756234800276370832228435 1 1 (0) 1 (0) false 0 .leaf)) 3451003168312588850765093200580368997503544735970687039567301571510355 9936705933 62500000000000000000000000000000000000000000000000000000000000000000000000000000000000000000000000000 (0) 1 (0) false 3 (.node (.node (.node .leaf 3451003168312588850765093200580794350462195792993082234633949850632275 1 1 (0) 1 (0) false 3 .leaf) 3451003168312588850765093200580794351151797506746387010567401927344217 10404660096024101 24000000000000000 (0) 1 (0) false 10 .leaf) 3451004813814007621851739060157245638034269772262497148549812342227028 11945966866083 7363512500000000000000000000000000000000000000000000000000000000000000000000000000000000000000000000000000000 (0) 1 (0) false 3 (.node .leaf 3451009750333956677103347358010832409971823159655264362978025087696978 1 1 (0) 1 (0) false 30 .leaf)))) 3451009750333956677103347358010832409971823159655264363017607537754177 1 1 (0) 1 (0) false 30 (.node (.node (.node (.node (.node .leaf 3451009750333956677103347358010832409971823159655282809722098797248594 1 1 (0) 1 (0) false 30 .leaf) 3451009750333956677103347358010832409971823159655282809761681247305793 1 1 (0) 1 (0) false 30 .leaf) 3451009750337095234331499748987909675503805828401593379701890459107410 1000000 1 (0) 1 (0) false 5 (.node .leaf 3451009750337095240691954161029428881584513616880492475483428690591828 580644 625 (0) 1 (0) false 5 .leaf)) 3451009750337095240691954161029428881584513616880520145595141183242312 16129 2500 (0) 1 (0) false 5 (.node (.node (.node .leaf 3451009750337095240691954161029428881584513616880557039061298388664389 647497027584 25 (0) 1 (0) false 5 .leaf) 3451009750337095240691954161029428881584513616880621602661158331875413 16129 2500000000 (0) 1 (0) false 5 .leaf) 3451009750337095240691954161029428881584513616880667719490556286468164 5225796 625 (0) 1 (0) false 5 (.node .leaf 3451009750339449146733976991029855931619279625399880719532284771827785 1 1 (0) 1 (0) false 30 .leaf))) 3451009750339449146733976991029855931619279625399899166276358481379401 1 1 (0) 1 (0) false 30 (.node (.node (.node (.node .leaf 3451014686849197925508937573045484635562186516297760399369081242779717 31250 23303121 (0) 1 (0) false 20 .leaf) 3451014686849197925508937573045909988520837689377089617628370953044037 1 1 (0) 1 (0) false 23 .leaf) 3451014686874306344423111418106355323019128183688152906884936661729381 31250 23303121 (0) 1 (0) false 20 (.node .leaf 3451014686874306344423111418106780675977779356767482125144226371993701 1 1 (0) 1 (0) false 23 .leaf)) 3451016332342770321671208389930793032716088865038571419454970987020356 1 1 (0) 1 (0) false 19 (.node (.node (.node .leaf 3451016332342770321671208389931643738633391211197229855973550407548996 1 1 (0) 1 (0) false 19 .leaf) 3451016332342770321671208389932069090861875793287723753435772089270341 1 1 (0) 1 (0) false 21 .leaf) 3451016332367878740585382234991663721471104747062670834103450488275044 1 1 (0) 1 (0) false 19 (.node .leaf 3451016332367878740585382234992514427388407093221329270622029908803684 1 1 (0) 1 (0) false 19 .leaf))))
def table110 : Table := .node (.node (.node (.node (.node (.node .leaf 3451016332367878740585382234992939778318817460678116260951627508220005 1 1 (0) 1 (0) false 21 .leaf) 3451016332367878740585382234997023168750109527862218984170500837605476 1 1 (0) 1 (0) false 19 .leaf) 3451036078425705143680714920069715574940261939927391349859811810345075 1 100000000000000000000000000000000000000000000000000000000000000000000000000000000000000000000000 (0) 1 (0) false 3 (.node (.node .leaf 3451036078425705143680714920069715574940261939927391349916986387726451 1 100000000000000000000000000000000000000000000000000000000000000000000000000000000000000000000000 (0) 1 (0) false 3 .leaf) 3451036078438259342661753289250765491736813228004728301472337499258990 1987543976517 244140625000000000000000000000000000000000000000000000000000000000000000000000000000000000000000000 (0) 1 (0) false 3 .leaf)) 3451036078438259342661753289250765491736813286033232206640368542810227 55306341 1953125000000000000000000000000000000000000000000000000000000000000000000000000000000000000000000000 (0) 1 (0) false 3 (.node (.node (.node .leaf 3451036078438259342661753289250765491736813344061662324717755490631795 2048383 125000000000000000000000000000000000000000000000000000000000000000000000000000000000000000000000000000 (0) 1 (0) false 3 .leaf) 3451036078438259342661753289250765491736813421432831769780457763242098 1 1000000000000000000000000000000000000000000000000000000000000000000000000000000000000000000 (0) 1 (0) false 3 .leaf) 3451036078438259342661753289250765491736813421432868663233420810256499 1987543976517 476837158203125000000000000000000000000000000000000000000000000000000000000000000000000000000 (0) 1 (0) false 3 (.node .leaf 3451036078438259342661753289250765491736813556832523566592537082724456 2048383 125000000000000000000000000000000000000000000000000000000000000000000000000000000000000000000000000000000 (0) 1 (0) false 3 .leaf))) 3451036078438259342661753289250765491736813556832551236713045695660147 2048383 125000000000000000000000000000000000000000000000000000000000000000000000000000000000000000000000000000000000000 (0) 1 (0) false 3 (.node (.node (.node (.node .leaf 3451036078438259342661753289250765491736813653546552242292315792605299 1493271207 1953125000000000000000000000000000000000000000000000000000000000000000000000000000000000000000000000 (0) 1 (0) false 3 .leaf) 3451036078438259342661753289250765492264155877699671732494966032695406 1987543976517 244140625000000000000000000000000000000000000000000000000000000000000000000000000000000000000000000 (0) 1 (0) false 3 .leaf) 3451036078438259342661753289250765492264156071127775200803086296678514 1 1000000000000000000000000000000000000000000000000000000000000000000000000000000000000000000 (0) 1 (0) false 3 (.node .leaf 3451036078438259342661753289250765492264156206527466997615165616160872 2048383 125000000000000000000000000000000000000000000000000000000000000000000000000000000000000000000000000000000 (0) 1 (0) false 3 .leaf)) 3451036078438259342661753289250765494292396838064838774889691161297006 1987543976517 244140625000000000000000000000000000000000000000000000000000000000000000000000000000000000000000000 (0) 1 (0) false 3 (.node (.node (.node .leaf 3451036078438259342661753289250765494292397031492942243197811425280114 1 1000000000000000000000000000000000000000000000000000000000000000000000000000000000000000000 (0) 1 (0) false 3 .leaf) 3451036078438259342661753289250765494292397166892634040009890744762472 2048383 125000000000000000000000000000000000000000000000000000000000000000000000000000000000000000000000000000000 (0) 1 (0) false 3 .leaf) 3451041014944869573936313702276594765421673044555953773497674585079909 473176473 16000000000000000000000000000000000000000000000000000000000000000000000000000000000000000000000000000000 (0) 1 (0) false 3 (.node .leaf 3451042660440795879507897309247140091412571802806567645790477492420729 9610517 80000000000 (0) 1 (0) false 10 .leaf)))) 3451044305948491745595337084192316167743850894459560825657380829134956 100 1 (0) 1 (0) false 6 (.node (.node (.node (.node (.node .leaf 3451052533471278357986002627889884853951116620875678664002227463520371 6145149 5890810000000000000000000000000000000000000000000000000000000000000000000000000000000000000000000 (0) 1 (0) false 3 .leaf) 3451052533474416905860539544582344043076747907857392507821703468941427 1 1000000000000000000000000000000000000000000000000000000000000000000000000000000000000000000000000 (0) 1 (0) false 3 .leaf) 3451052533474416905860539544582344043076747907857392507878878046322803 1 1000000000000000000000000000000000000000000000000000000000000000000000000000000000000000000000000 (0) 1 (0) false 3 (.node .leaf 3451052533474416905860539544582344043360701564937106641140051731284068 1000000 1 (0) 1 (0) false 0 .leaf)) 3451054178972697126079484392319848575492635751035741486339931634663539 1 1 (0) 1 (0) false 0 (.node (.node (.node .leaf 3451055824483531548272610295667032956570563340106315927650316842958963 9936705933 62500000000000000000000000000000000000000000000000000000000000000000000000000000000000000000000000000 (0) 1 (0) false 3 .leaf) 3451055824483531548272610295667458309529214397128711122716965122080883 1 1 (0) 1 (0) false 3 .leaf) 3451055824483531548272610295667458310218816110882015898650417198792825 10404660096024101 24000000000000000 (0) 1 (0) false 10 (.node .leaf 3451057469984950319359261864234680420940812609542003834613373144662132 11945966866083 7363512500000000000000000000000000000000000000000000000000000000000000000000000000000000000000000000000000000 (0) 1 (0) false 3 .leaf))) 3451062406504899362638243040082739663114255614178807606134461614260338 1 1 (0) 1 (0) false 30 (.node (.node (.node (.node .leaf 3451062406504899362638243040082739663114255614178807606174043997208673 1 1 (0) 1 (0) false 30 .leaf) 3451062406504899362638243040082739663114255614178826052878535323811954 1 1 (0) 1 (0) false 30 .leaf) 3451062406504899362638243040082739663114255614178826052918117706760289 1 1 (0) 1 (0) false 30 (.node .leaf 3451062406508037931839022553065344458410348665681100065765451261542514 1000000 1 (0) 1 (0) false 5 .leaf)) 3451062406508037938199476965106863664491055835189979518856852043464820 580644 625 (0) 1 (0) false 5 (.node (.node (.node .leaf 3451062406508037938199476965106863664491055835190007188968564536115304 16129 2500 (0) 1 (0) false 5 .leaf) 3451062406508037938199476965106863664491055835190044082434721741537381 647497027584 25 (0) 1 (0) false 5 .leaf) 3451062406508037938199476965106863664491055835190108646034581684748405 16129 2500000000 (0) 1 (0) false 5 (.node .leaf 3451062406508037938199476965106863664491055835190154762863979639341156 5225796 625 (0) 1 (0) false 5 .leaf))))
def table111 : Table := .node table109 3451016332367878740585382234992769639163597797068926801577603734962276 1 1 (0) 1 (0) false 19 table110
def table112 : Table := .node (.node (.node (.node (.node (.node .leaf 3451062406510391844241494086116519890686298229535232906454194400002153 1 1 (0) 1 (0) false 30 .leaf) 3451068988513713019178731194005505556687264194610371108659077643763812 1 1 (0) 1 (0) false 19 .leaf) 3451068988513713019178731194006356262604566540769029545177657064292452 1 1 (0) 1 (0) false 19 (.node (.node .leaf 7237229884197136273204437853450231375494007176460731411517799892325320622162 100000 1 (0) 1 (0) false 6 .leaf) 7237229884197136273204437853450231375494007176460731411517799953898009526345 5000000000000000 725188688661 (0) 1 (0) false 6 .leaf)) 7237233335068664163144355063073009616726978568597830593089960467830281338949 100000 1 (0) 1 (0) false 6 (.node (.node (.node .leaf 7237236785964874624582675278168056189922410630452792883539038239839741804628 5 9 (-160) 9 (0) false 1 .leaf) 7237236785974747637018484770442220845407078145817687668904743726751751864403 1987543976517 244140625000000000000000000000000000000000000000000000000000000000000000000000000000000000000000000 (0) 1 (0) false 3 .leaf) 7237236785974747637018484770442220845407078510901002506195469846805810774085 53663687365959 476837158203125000000000000000000000000000000000000000000000000000000000000000000000000000000 (0) 1 (0) false 3 (.node .leaf 7237236785974747637018484770442220845407078551465821713674054754604454772819 1 1000000000000000000000000000000000000000000000000000000000000000000000000000000000000000000 (0) 1 (0) false 3 .leaf))) 7237236785974747637018484770442220845407078835419556164742100523615520817235 2048383 125000000000000000000000000000000000000000000000000000000000000000000000000000000000000000000000000000000 (0) 1 (0) false 3 (.node (.node (.node (.node .leaf 7237236786017530795525372785690860267357193536995011192730933708083741851764 5 9 (-160) 9 (0) false 1 .leaf) 7237247138579458296756391689740164758373829279817723270013623446955263787091 473176473 16000000000000000000000000000000000000000000000000000000000000000000000000000000000000000000000000000000 (0) 1 (0) false 3 .leaf) 7237250589462504703689459801475577817597307614142014712505058171709921689669 523 125 (0) 1 (0) false 19 (.node .leaf 7237271294686735542995945763383351465379959884024591060988573104417462550611 1000000 1 (0) 1 (0) false 0 .leaf)) 7237281647299673712181618273486888004294844921439840420075536053126096224339 11945966866083 7363512500000000000000000000000000000000000000000000000000000000000000000000000000000000000000000000000000000 (0) 1 (0) false 3 (.node (.node (.node .leaf 7237281647322710772060909362812819141875914934341700313262101168018084069445 5000000000000000 725188688661 (0) 1 (0) false 6 .leaf) 7237291999932357913300639118547133210237228882917356969348091268713892806721 1 1 (0) 1 (0) false 30 .leaf) 7237291999932357913300639118547133210237228882917395654974318936847483404353 1 1 (0) 1 (0) false 30 (.node .leaf 7237291999938939944084135644668120123516495498194890815228003757027644932178 1 1 (0) 1 (0) false 5 .leaf)))) 7237291999938939948007324229282833135336393436252142425904027941372155658322 100000000 1 (0) 1 (0) false 5 (.node (.node (.node (.node (.node .leaf 7237291999938939958207613052711188837872725900668100527441118277300989722702 2529285264 625 (0) 1 (0) false 5 .leaf) 7237291999938939958207613052711188837872725900668293955544586585421253705810 10000 1 (0) 1 (0) false 5 .leaf) 7237291999938939958207613052711188837872725900668293955544586585421280968773 10000 1 (0) 1 (0) false 5 (.node .leaf 7237291999938939958207613052711188837872725900668429355236383397500573188168 16129 250000 (0) 1 (0) false 5 .leaf)) 7237291999943876456971453314692244426707235504966610650728570073808182968385 1 1 (0) 1 (0) false 30 (.node (.node (.node .leaf 7237291999943876456971453314692244426707235504966649336354797741941773566017 1 1 (0) 1 (0) false 30 .leaf) 7237340312191341093167734317066831885336029300747123416914220651094351020146 100000 1 (0) 1 (0) false 6 .leaf) 7237340312191341093167734317066831885336029300747123416914220712667039924329 5000000000000000 725188688661 (0) 1 (0) false 6 (.node .leaf 7237340312191341093167734317066831885336029300747123417034124487573463105650 100000 1 (0) 1 (0) false 6 .leaf))) 7237340312191341093167734317066831885336029300747123417034124549146152009833 5000000000000000 725188688661 (0) 1 (0) false 6 (.node (.node (.node (.node .leaf 7237340312191341093167734317066831885336029300747123417495293089416201896050 100000 1 (0) 1 (0) false 6 .leaf) 7237340312191341093167734317066831885336029300747123417495293150988890800233 5000000000000000 725188688661 (0) 1 (0) false 6 .leaf) 7237343763062868983107639554068197111812294768298072986991032110379272503397 100000 1 (0) 1 (0) false 6 (.node .leaf 7237343763062868983107644417945646149057206550161196266780921525322775527525 100000 1 (0) 1 (0) false 6 .leaf)) 7237343763062868983107663125166603984614559557327055035203573121259325620325 100000 1 (0) 1 (0) false 6 (.node (.node (.node .leaf 7237347213968952456981781234058821352526841334736571966889315531245989396595 1987543976517 244140625000000000000000000000000000000000000000000000000000000000000000000000000000000000000000000 (0) 1 (0) false 3 .leaf) 7237347213968952456981781234058821352526841578125603267606490362689420787827 2048383 125000000000000000000000000000000000000000000000000000000000000000000000000000000000000000000000000000 (0) 1 (0) false 3 .leaf) 7237347213968952456981781234058821352526841699819886804180041651300048306277 53663687365959 476837158203125000000000000000000000000000000000000000000000000000000000000000000000000000000 (0) 1 (0) false 3 (.node .leaf 7237347213968952456981781234058821352526841740384706011658626559098692305011 1 1000000000000000000000000000000000000000000000000000000000000000000000000000000000000000000 (0) 1 (0) false 3 .leaf))))
def table113 : Table := .node (.node (.node (.node (.node (.node .leaf 7237347213968952456981781234058821353632759270618653273862457836842667475059 2048383 125000000000000000000000000000000000000000000000000000000000000000000000000000000000000000000000000000 (0) 1 (0) false 3 .leaf) 7237347213968952456981781234058821353632759392312936810436009125453294993509 53663687365959 476837158203125000000000000000000000000000000000000000000000000000000000000000000000000000000 (0) 1 (0) false 3 .leaf) 7237347213968952456981781234058821357886288857130384067154640429739770118259 2048383 125000000000000000000000000000000000000000000000000000000000000000000000000000000000000000000000000000 (0) 1 (0) false 3 (.node .leaf 7237347213968952456981781234058821357886288978824667603728191718350397636709 53663687365959 476837158203125000000000000000000000000000000000000000000000000000000000000000000000000000000 (0) 1 (0) false 3 .leaf)) 7237357566573663116719688153356765265493592468736607567998195251449501319283 473176473 16000000000000000000000000000000000000000000000000000000000000000000000000000000000000000000000000000000 (0) 1 (0) false 3 (.node (.node (.node .leaf 7237361017456709523652756265086469336668505898904173574318828855112773927013 523 125 (0) 1 (0) false 19 .leaf) 7237361017456709523652756265088788614169153083710893289019184284709395890277 523 125 (0) 1 (0) false 19 .leaf) 7237361017456709523652756265097708912248565332967507576328243629311788056677 523 125 (0) 1 (0) false 19 (.node .leaf 7237381722680940362959242226999951975221982008310983066680141768365845774451 1000000 1 (0) 1 (0) false 0 .leaf))) 7237392075293878532144914737103488514136867045726232425767104717074479448179 11945966866083 7363512500000000000000000000000000000000000000000000000000000000000000000000000000000000000000000000000000000 (0) 1 (0) false 3 (.node (.node (.node (.node .leaf 7237392075300460543312461979668310182824803658109630696409859100476331524211 55306341 1953125000000000000000000000000000000000000000000000000000000000000000000000000000000000000000000000 (0) 1 (0) false 3 .leaf) 7237392075300460543312461979668310182824809053230585267754191870445173604467 55306341 1953125000000000000000000000000000000000000000000000000000000000000000000000000000000000000000000000 (0) 1 (0) false 3 .leaf) 7237392075300460543312461979670629460325450842916350411110214530072953487475 55306341 1953125000000000000000000000000000000000000000000000000000000000000000000000000000000000000000000000 (0) 1 (0) false 3 (.node .leaf 7237392075300460543312461979670629460325456238037304982454547300041795567731 55306341 1953125000000000000000000000000000000000000000000000000000000000000000000000000000000000000000000000 (0) 1 (0) false 3 .leaf)) 7237392075300460543312461979679549758404863092172964698419273874675345653875 55306341 1953125000000000000000000000000000000000000000000000000000000000000000000000000000000000000000000000 (0) 1 (0) false 3 (.node (.node (.node .leaf 7237392075300460543312461979679549758404868487293919269763606644644187734131 55306341 1953125000000000000000000000000000000000000000000000000000000000000000000000000000000000000000000000 (0) 1 (0) false 3 .leaf) 7237392075316915592024193853808006636961231134041942707163172810567075233893 5000000000000000 725188688661 (0) 1 (0) false 6 .leaf) 7237392075316915592024198717685455674206142915905065986953062225510578258021 5000000000000000 725188688661 (0) 1 (0) false 6 (.node .leaf 7237392075316915592024217424906413509763495923070924755375713821447128350821 5000000000000000 725188688661 (0) 1 (0) false 6 .leaf)))) 7237402427926562708155516667995597649979387389786314728820098443269296357473 1 1 (0) 1 (0) false 30 (.node (.node (.node (.node (.node .leaf 7237402427926562708155516667995597649979387389786353414446326111402886955105 1 1 (0) 1 (0) false 30 .leaf) 7237402427933144764047432108284720633358517622481282820919572420976028156018 1 1 (0) 1 (0) false 5 .leaf) 7237402427933144767970620692899433645178415560538534431595596605320538882162 100000000 1 (0) 1 (0) false 5 (.node .leaf 7237402427933144778170909516327789347714746726880277899425779808625290641518 2529285264 625 (0) 1 (0) false 5 .leaf)) 7237402427933144778170909516327789347714746726880471327529248116745554624626 10000 1 (0) 1 (0) false 5 (.node (.node (.node .leaf 7237402427933144778170909516327789347714746726880471327529248116745581887589 10000 1 (0) 1 (0) false 5 .leaf) 7237402427933144778170909516327789347714746726880606727221044928824874106984 16129 250000 (0) 1 (0) false 5 .leaf) 7237402427938081276934737805687431921792551704666234074609999026219724570721 1 1 (0) 1 (0) false 30 (.node .leaf 7237402427938081276934737805687431921792551704666272760236226694353315168353 1 1 (0) 1 (0) false 30 .leaf))) 7237416231406092295194979555118364007748338075189261332271585011533789266021 473176473 16000000000000000000000000000000000000000000000000000000000000000000000000000000000000000000000000000000 (0) 1 (0) false 3 (.node (.node (.node (.node .leaf 7237423133150793538046348530242105404826084529830388140806090147389962715186 1493271207 1953125000000000000000000000000000000000000000000000000000000000000000000000000000000000000000000000 (0) 1 (0) false 3 .leaf) 15177585600180513956468589373302444330387145002870157863901291507612167772416507975 1987543976517 244140625000000000000000000000000000000000000000000000000000000000000000000000000000000000000000 (0) 1 (0) false 3 .leaf) 15177585600180513956468589373302444330387145513293059207872841980168499676493906003 53663687365959 476837158203125000000000000000000000000000000000000000000000000000000000000000000000000000000 (0) 1 (0) false 3 (.node .leaf 15177592837144680828750606955750913206281430888595324383527142758426219946117693523 1 1 (0) 1 (0) false 32 .leaf)) 15177643496183722152940608057110198687324598686210563145116570030633615521185005651 1 1 (0) 1 (0) false 9 (.node (.node (.node .leaf 15177643496183722152940608057116184994998206333904887519134670769100471006866178130 3600000 1 (0) 1 (0) false 19 .leaf) 15177657970194876817465028157091563907258202232592601526004143906818740608340852818 25146 15625 (0) 1 (0) false 13 .leaf) 15177665207172847179149632660600336075090637111377832511300635978231786214759858245 1852 1 (0) 1 (0) false 4 (.node .leaf 15177701392242144262594261928739357506115425026267982132620702907047573516443451457 1 1 (0) 1 (0) false 30 .leaf))))
def table114 : Table := .node table112 7237347213968952456981781234058821352526842024338440462726672328109758349427 2048383 125000000000000000000000000000000000000000000000000000000000000000000000000000000000000000000000000000000 (0) 1 (0) false 3 table113
def table115 : Table := .node table111 3451062406510391844241494086116519890686298229535214459710120690450537 1 1 (0) 1 (0) false 30 table114
def table116 : Table := .node (.node (.node (.node (.node (.node .leaf 15177730340223043167864042092395810863385605456240448495946471246182369530008830041 10404660096024101 24000000000000000 (0) 1 (0) false 10 .leaf) 15177817184469416583064256478568925317094370614037773907188232236550867001528025191 1987543976517 244140625000000000000000000000000000000000000000000000000000000000000000000000000000000000000000 (0) 1 (0) false 3 .leaf) 15177817184469416583064256478568925317094371124460675251159782709107198905605423219 53663687365959 476837158203125000000000000000000000000000000000000000000000000000000000000000000000000000000 (0) 1 (0) false 3 (.node (.node .leaf 15177817184469416583064256478568925319413648114684958713907946936906296598149988455 1987543976517 244140625000000000000000000000000000000000000000000000000000000000000000000000000000000000000000 (0) 1 (0) false 3 .leaf) 15177817184469416583064256478568925328333946194097207970522234245965641200542154855 1987543976517 244140625000000000000000000000000000000000000000000000000000000000000000000000000000000000000000 (0) 1 (0) false 3 .leaf)) 15177824421433583455346274061017394198697647270586779951047227365162899720760197235 1 1 (0) 1 (0) false 32 (.node (.node (.node .leaf 15177875080472624779536275162376679679740815068202018712017684617727605158377947251 1 1 (0) 1 (0) false 9 .leaf) 15177875080472624779536275162382665987414422715896343086035785356194460644059119730 3600000 1 (0) 1 (0) false 19 .leaf) 15177875080472624779536275162382665987414422715896343086287241926674303512398004338 3600000 1 (0) 1 (0) false 19 (.node .leaf 15177875080472624779536275162382665987414422715896343087254382582366006852162945138 3600000 1 (0) 1 (0) false 19 .leaf))) 15177889554483779444060695262346072278261403857878132506755646703415708846141735026 25146 15625 (0) 1 (0) false 13 (.node (.node (.node (.node .leaf 15177896791461749805745299765866817067506853493369288078201750565325775851952799845 1852 1 (0) 1 (0) false 4 .leaf) 15177932976531046836533758091320303602849572223265230635812941697180787183710109793 1 1 (0) 1 (0) false 30 .leaf) 15177932976544850437830679233985856086138676527770793640651410267944265573499666533 5827473248256 25 (0) 1 (0) false 5 (.node .leaf 15177961924511945794459709197662291850092831067408064539233411975121068759120347257 10404660096024101 24000000000000000 (0) 1 (0) false 10 .leaf)) 31829703996589765204836015141399967732360061917059157304596321287771872868258824532787283 1987543976517 244140625000000000000000000000000000000000000000000000000000000000000000000000000000000000000000 (0) 1 (0) false 3 (.node (.node (.node .leaf 31829749527826793760731714750873790847864155032682858788747970743430808310159266629550155 454609 16000000000000000000000000000000000000000000000000000000000000000000000000000000000000000000000000000 (0) 1 (0) false 3 .leaf) 31829825413308685280483702068184767397520156783983854920907504937483785387849827290710085 20000 196133 (0) 1 (0) false 9 .leaf) 31829825413308685280483702068196536956913555074464887422247925262714721801248147377225793 3600000 1 (0) 1 (0) false 19 (.node .leaf 31829855767510126307500418729740903936838513261297829129179295643247232225672661640937554 25146 15625 (0) 1 (0) false 13 .leaf)))) 31829946830172345464227128155768094916550250448631690799681686134646216214893538177974343 10117141056 25 (0) 1 (0) false 5 (.node (.node (.node (.node (.node .leaf 31830007538459435425572436284681187490981093017045727521364066514113934639986161831903314 31250 23303121 (0) 1 (0) false 20 .leaf) 31830007538459435425572436284681187490981093017045727521364066514114072990505142000287828 3600000000000 1 (0) 1 (0) false 0 .leaf) 31830007538691019714475062880323184350520538710206766355126802749563955514811743702351988 3600000000000 1 (0) 1 (0) false 0 (.node .leaf 31830007538691019714475062880323184350520538710206766355126802749564112312197942886793330 31250 23303121 (0) 1 (0) false 20 .leaf)) 31830189664044405926006371602543778866595093521970545625007615611347123833988501085356147 1987543976517 244140625000000000000000000000000000000000000000000000000000000000000000000000000000000000000000 (0) 1 (0) false 3 (.node (.node (.node .leaf 31830235195281434481902071212017601982099186637594247109159265067006059275748205626654795 454609 16000000000000000000000000000000000000000000000000000000000000000000000000000000000000000000000000000 (0) 1 (0) false 3 .leaf) 31830235195281434481902071212017601982099186637594247109159265067006059275748205693763691 454609 16000000000000000000000000000000000000000000000000000000000000000000000000000000000000000000000000000 (0) 1 (0) false 3 .leaf) 31830311080763326001654058529328578543727809801909999945945311196037119943468279153033317 20000 196133 (0) 1 (0) false 9 (.node .leaf 31830311080763326001654058529328578543727809801909999946472653845732063374490907686469733 20000 196133 (0) 1 (0) false 9 .leaf))) 31830311080763326001654058529328578543727809801909999948500894806097230416885632815071333 20000 196133 (0) 1 (0) false 9 (.node (.node (.node (.node .leaf 31830311080763326001654058529340348103121208092391032448583805116931743621309085872291937 3600000 1 (0) 1 (0) false 19 .leaf) 31830311080763326001654058529340348103121208092391032448583805368388314101151954211176545 3600000 1 (0) 1 (0) false 19 .leaf) 31830311080763326001654058529340348103121208092391032448583806335528969792855293976117345 3600000 1 (0) 1 (0) false 19 (.node .leaf 31830341434964767028670775190884715071073544866209217449590589347852463548712200743944306 25146 15625 (0) 1 (0) false 13 .leaf)) 31830432497626986185397484616911906062757897757567065002178042374689379879664068591616103 10117141056 25 (0) 1 (0) false 5 (.node (.node (.node .leaf 66751822881781016188906037053224472224180008455100922674540384340527406509267126330694366658643 454609 16000000000000000000000000000000000000000000000000000000000000000000000000000000000000000000000000000 (0) 1 (0) false 3 .leaf) 66751918367857583932476802704851707154907496839836758442225076236194953963545429641268421460046 454609 100000000000000000000000000000000000000000000000000000000000000000000000000000000000000000000000000 (0) 1 (0) false 3 .leaf) 66752077511111109891741209976516517037182245508271820938651424676753748874201343755841043431493 5556 1 (0) 1 (0) false 4 (.node .leaf 66752236654835125792416324105908019471134225073213590086954028948614782997140789718734373650508 9936705933 62500000000000000000000000000000000000000000000000000000000000000000000000000000000000000000000000000 (0) 1 (0) false 3 .leaf))))
def table117 : Table := .node (.node (.node (.node (.node (.node .leaf 66752841400254850886589892446425138031963273455404050513467571053801891222253901067087912108147 454609 16000000000000000000000000000000000000000000000000000000000000000000000000000000000000000000000000000 (0) 1 (0) false 3 .leaf) 66752936886331418630160658098052372987799168781686609333773161706932596633529777201243312095342 454609 100000000000000000000000000000000000000000000000000000000000000000000000000000000000000000000000000 (0) 1 (0) false 3 .leaf) 66753096029584944589425065369717182870073917450121671830199510147491391544185691315815934066789 5556 1 (0) 1 (0) false 4 (.node (.node .leaf 66753255173308960490100179499108685304025897015063440978502114419352425667125137278709264285804 9936705933 62500000000000000000000000000000000000000000000000000000000000000000000000000000000000000000000000000 (0) 1 (0) false 3 .leaf) 66753255173308960490100179499108685304025897015063440979608032111845475673381104752862510973036 9936705933 62500000000000000000000000000000000000000000000000000000000000000000000000000000000000000000000000000 (0) 1 (0) false 3 .leaf)) 66753255173308960490100179499108685304025897015063440983861561698357206466673287345759613616236 9936705933 62500000000000000000000000000000000000000000000000000000000000000000000000000000000000000000000000000 (0) 1 (0) false 3 (.node (.node (.node .leaf 139988518611674661973083572301080245315524346400312307522028750480235644362573046016472236667036500050 1 1000000000000000000000000000000000000000000000000000000000000000000000000000000000000000000000000 (0) 1 (0) false 3 .leaf) 139988919108989267859161591746085167363328566812657337640629203078888720094557224863045352601778389075 454609 100000000000000000000000000000000000000000000000000000000000000000000000000000000000000000000000000 (0) 1 (0) false 3 .leaf) 139989519855088491163611756746696996959876085224451634324812679657391001657336129641570509653144502348 1 6289814000000000000000000000000000000000000000000000000000000000000000000000000000000000000 (0) 1 (-1) false 3 (.node .leaf 139989586605065307967968720225305355701050547013101270200535725374479400585947231596987166139755790418 1000000 1 (0) 1 (0) false 5 .leaf))) 139989586605065307967968720225305355701050547013101270200535725374479400585947231596987166139783053381 1000000 1 (0) 1 (0) false 5 (.node (.node (.node (.node .leaf 139989586605065307967968720225305355701050547013103889212183446964497695009277047200247874383578660946 10000000000 1 (0) 1 (0) false 5 .leaf) 139989586605065307967968720225305355701050547013103889212183446964497695009277047200247874383605923909 10000000000 1 (0) 1 (0) false 5 .leaf) 139989586605160793725817478931353214849928082380740026878035815717645389392019801440223229169910153299 9936705933 62500000000000000000000000000000000000000000000000000000000000000000000000000000000000000000000000000 (0) 1 (0) false 3 (.node .leaf 139989720104064080097681455899696677673940554711529521116301755417043539379836035662885330884856119412 3312235311 62500000000000000000000000000000000000000000000000000000000000000000000000000000000000000000000000000 (0) 1 (0) false 3 .leaf)) 139989720104318709594723266660480233384991726981660954665509997448373056936005333325355747973129044084 473176473 10000000000000000000000000000000000000000000000000000000000000000000000000000000000000000000000000000 (0) 1 (0) false 3 (.node (.node (.node .leaf 139990654599729101357000665006641808015648636162228012675690577950352656528001656648092123431004274802 1 1000000000000000000000000000000000000000000000000000000000000000000000000000000000000000000000000 (0) 1 (0) false 3 .leaf) 139990654599729101357000665006641808037040195407403691223705177323598213092777222901328661654536192114 1 1000000000000000000000000000000000000000000000000000000000000000000000000000000000000000000000000 (0) 1 (0) false 3 .leaf) 139990654599729101357000665006641808119315423273463993331453636451465738341914016183007654821966643314 1 1000000000000000000000000000000000000000000000000000000000000000000000000000000000000000000000000 (0) 1 (0) false 3 (.node .leaf 139991055097043707243078684451646730116109002408851636137541053620017108895200239317141814447370666099 454609 100000000000000000000000000000000000000000000000000000000000000000000000000000000000000000000000000 (0) 1 (0) false 3 .leaf)))) 139991655843142930547528849452258559712656520820645932827433518247084294614704580266468092590122074220 1 6289814000000000000000000000000000000000000000000000000000000000000000000000000000000000000 (0) 1 (-1) false 3 (.node (.node (.node (.node (.node .leaf 139991655843142930547528849452258559712656520820645932827433519353001987107754586522435566743368761452 1 6289814000000000000000000000000000000000000000000000000000000000000000000000000000000000000 (0) 1 (-1) false 3 .leaf) 139991655843142930547528849452258559712656520820645932827433523606531573619485379814618159640471404652 1 6289814000000000000000000000000000000000000000000000000000000000000000000000000000000000000 (0) 1 (-1) false 3 .leaf) 139991722593119747351885812930866918453830957500888627156433511343273936080157725519459830674741002354 1000000 1 (0) 1 (0) false 5 (.node .leaf 139991722593119747351885812930866918453830957500888627156433511343273936080157725519459830674768265317 1000000 1 (0) 1 (0) false 5 .leaf)) 139991722593119747351885812930866918453830957500891246168081232933292230503487541122720538918563872882 10000000000 1 (0) 1 (0) false 5 (.node (.node (.node .leaf 139991722593119747351885812930866918453830957500891246168081232933292230503487541122720538918591135845 10000000000 1 (0) 1 (0) false 5 .leaf) 139991722593215233109734571636914777602708517976934325374947666258773778192662815894319691015502430323 9936705933 62500000000000000000000000000000000000000000000000000000000000000000000000000000000000000000000000000 (0) 1 (0) false 3 .leaf) 293576921815284469863821288195987819322015973647872474609090162018113253889024724741179262243130285710377044 149597870700 1 (0) 1 (0) false 4 (.node .leaf 293577201783510740706176159818355038623942514102107756344437638127127142046258788599536784070748930152857683 1 1000000000000000000000000000000000000000000000000000000000000000000000000000000000000000000000000 (0) 1 (0) false 3 .leaf))) 293579021575713263207607198459570330400838799646826663641947316068854248064426850681652189582778822522044488 5000000000000000 725188688661 (73479500000000000) 725188688661 (0) false 6 (.node (.node (.node (.node .leaf 293579301543138539420750722884849100568398051880629193827549560768856853907685778950078877460111299388112979 1 6289814000000000000000000000000000000000000000000000000000000000000000000000000000000000000 (0) 1 (-1) false 3 .leaf) 293579441527985920735641537557939577319169556769618570365876976167911938235717959470540628869098065008525394 1 1 (0) 1 (0) false 5 .leaf) 293579441527985920735641537557939577319169556769618570365876976167911938235717959470540628869098065035788357 1 1 (0) 1 (0) false 5 (.node .leaf 293579441527985920735641537557939577319169556769622493554461590880923758133656016722151304893282409519251538 100000000 1 (0) 1 (0) false 5 .leaf)) 293579441527985920735641537557939577319169556769622493554461590880923758133656016722151304893282409546514501 100000000 1 (0) 1 (0) false 5 (.node (.node (.node .leaf 293581401306904813526681786997641661772134969719302540102458464617156493424995409320258336249869082598310004 149597870700 1 (0) 1 (0) false 4 .leaf) 293581681275131084369036658620008880963633568624888801238849846929737974343011730242859692837577476909564019 1 1000000000000000000000000000000000000000000000000000000000000000000000000000000000000000000000000 (0) 1 (0) false 3 .leaf) 293583501067333606870467697261224172740529854169607708536359524871465080361179791706005078706917231829188712 5000000000000000 725188688661 (73479500000000000) 725188688661 (0) false 6 (.node .leaf 293583501067333606870467697261224172740529854169607708536359524871465080361179791957461649186760100168073320 5000000000000000 725188688661 (73479500000000000) 725188688661 (0) false 6 .leaf))))
def table118 : Table := .node table116 66752841400254850886589892446425138031963273455404050513467571053801891222253900926350356643955 454609 16000000000000000000000000000000000000000000000000000000000000000000000000000000000000000000000000000 (0) 1 (0) false 3 table117
def table119 : Table := .node (.node (.node (.node (.node (.node .leaf 293583781034758883083611221686502943018517047952059259320917857658909322619816939914984093311559688194621555 1 6289814000000000000000000000000000000000000000000000000000000000000000000000000000000000000 (0) 1 (-1) false 3 .leaf) 293583921019606264398502036359593419769288500184902801580651929807941335936472485221042022243971372190531698 1 1 (0) 1 (0) false 5 .leaf) 293583921019606264398502036359593419769288500184902801580651929807941335936472485221042022243971372217794661 1 1 (0) 1 (0) false 5 (.node (.node .leaf 293583921019606264398502036359593419769288500184906724769236544520953155834410542472652698268155716701257842 100000000 1 (0) 1 (0) false 5 .leaf) 293583921019606264398502036359593419769288500184906724769236544520953155834410542472652698268155716728520805 100000000 1 (0) 1 (0) false 5 .leaf)) 615678364415596082837529421935620566968368604762792716424151778479775224743564916183129798722118566418614061105234 1 1 (0) 1 (0) false 13 (.node (.node (.node .leaf 615678657984258833978498519814531075318926178713682549256612303246037893524685025569487766269503033095024571056212 3312235311 62500000000000000000000000000000000000000000000000000000000000000000000000000000000000000000000000000 (0) 1 (0) false 3 .leaf) 615687758590406669790784642718506525970320557611984421133700089039342539608148204663002082985395615210823684718706 1 1 (0) 1 (0) false 13 .leaf) 615688052159069420931753740596931367097821699295144388489454746051566019694261985093633866012155495527469734166644 3312235311 62500000000000000000000000000000000000000000000000000000000000000000000000000000000000000000000000000 (0) 1 (0) false 3 (.node .leaf 615688052159069420931753740597128669407188374903909646339366509690521889138853218013761003210019602993935888154740 3312235311 62500000000000000000000000000000000000000000000000000000000000000000000000000000000000000000000000000 (0) 1 (0) false 3 .leaf))) 615688052159069420931753740597887524443214050322237561146719446763429079310357960014249992432573862480344172724340 3312235311 62500000000000000000000000000000000000000000000000000000000000000000000000000000000000000000000000000 (0) 1 (0) false 3 (.node (.node (.node (.node .leaf 1291171113290896156314890502271130543258848156215500270834342790558923176281349462892936740302929170298650724900435656786 1 1 (0) 1 (0) false 13 .leaf) 1291171728949004382195676127826083473667236673541756785538603004977034860481080250743102408007620824861296969239677108307 3312235311 62500000000000000000000000000000000000000000000000000000000000000000000000000000000000000000000000000 (0) 1 (0) false 3 .leaf) 1291176038541377138221897647405002583449174547107029461901440563975226475490627384969498260240983238301540260790245785684 473176473 10000000000000000000000000000000000000000000000000000000000000000000000000000000000000000000000000000 (0) 1 (0) false 3 (.node .leaf 1291176038544899950136281480842369371499597032398366744251651546193839737924539649288433366354019371131318195514666647636 55306341 1953125000000000000000000000000000000000000000000000000000000000000000000000000000000000000000000000 (0) 1 (0) false 3 .leaf)) 1291190814303388528365083595046401397951709698037088352749381474253935858709550076081530927308340876033519920424054423666 1 1 (0) 1 (0) false 13 (.node (.node (.node .leaf 1291191429961496754245869220600335810371930972320210644609436999591533781333860910563084449375123921756424207947045798003 3312235311 62500000000000000000000000000000000000000000000000000000000000000000000000000000000000000000000000000 (0) 1 (0) false 3 .leaf) 1291195739553869510272090740180273437656368865872185276086613770964371403879639303151763491520210423411823096549404049524 473176473 10000000000000000000000000000000000000000000000000000000000000000000000000000000000000000000000000000 (0) 1 (0) false 3 .leaf) 1291195739553869510272090740180273437853671175238860884851871620876135042835508747742996411647347621275930563015558037620 473176473 10000000000000000000000000000000000000000000000000000000000000000000000000000000000000000000000000000 (0) 1 (0) false 3 (.node .leaf 1291195739553869510272090740180273438612526211264536303179786428229072115742698919247738412136336843830190049423842607220 473176473 10000000000000000000000000000000000000000000000000000000000000000000000000000000000000000000000000000 (0) 1 (0) false 3 .leaf)))) 1291195739557392322186474573617640226192458574219954826114034084054585799625194263391898261786133140956409856810521985140 55306341 1953125000000000000000000000000000000000000000000000000000000000000000000000000000000000000000000000 (0) 1 (0) false 3 (.node (.node (.node (.node (.node .leaf 1291195739557392322186474573617640226192458574219954826135425643299761478173208862765143818351160163780126237902392787060 55306341 1953125000000000000000000000000000000000000000000000000000000000000000000000000000000000000000000000 (0) 1 (0) false 3 .leaf) 1291195739557392322186474573617640226192458574219954826217700871165821780280957321893011343601264097717496934409588179060 55306341 1953125000000000000000000000000000000000000000000000000000000000000000000000000000000000000000000000 (0) 1 (0) false 3 .leaf) 2707770462461318971160097000001636159688400039861024761479232410720425414050629896392941452702432492687035875200561557517893716 1055 1 (0) 1 (0) false 19 (.node .leaf 2707770462481019983652469050194728934959254732722334998888839693368261967105267570190862858033212803120274485398762654269440116 1055 1 (0) 1 (0) false 19 .leaf)) 2707770462481019983652469050194728934959254732722429079961345012777043618530587129115993639895753636330013115165611952026157172 1055 1 (0) 1 (0) false 19 (.node (.node (.node .leaf 2707770462481019983652469050194728934959254732722790930240211625887742277858739278828035108597833764059777075807340020321222772 1055 1 (0) 1 (0) false 19 .leaf) 2707776918075548033471324805556351500042890828486812508176062908581047113296690738977895140416046201631076652320586332446392409 9610517 80000000000 (0) 1 (0) false 10 .leaf) 2707792411579126148176329095050695977885603299814601050085529881621774153528120201643553215460898480170551760996785529938772051 473176473 10000000000000000000000000000000000000000000000000000000000000000000000000000000000000000000000000000 (0) 1 (0) false 3 (.node .leaf 2707792411586514020228202980111536612179122915688299614440839543403503394067924174584536611116064432206786216359974189423132755 55306341 1953125000000000000000000000000000000000000000000000000000000000000000000000000000000000000000000000 (0) 1 (0) false 3 .leaf))) 2707792411586514020228202980111536612179122915688299614440839543403503394067924174584536611116064432342185815923114278643564626 1 1000000000000000000000000000000000000000000000000000000000000000000000000000000000000000000 (0) 1 (0) false 3 (.node (.node (.node (.node .leaf 2707811778479069374189903544901480983149244008015020266465044983917966617467219839649976932358865285325577459849514218229334132 1055 1 (0) 1 (0) false 19 .leaf) 2707811778479069374189903544901480983149244008015114347537550303326748268892539398575107714221406118535316089616363515986051188 1055 1 (0) 1 (0) false 19 .leaf) 2707811778479069374189903544901480983149244008015476197816416916437446928220691548287149182923486246265080050258091584281116788 1055 1 (0) 1 (0) false 19 (.node .leaf 2707818234093298436501126870966711967895313681756478460451793870878440989384228252363444461634228391461632532227277868121456761 9610517 80000000000 (0) 1 (0) false 10 .leaf)) 2707833727596876551206135639950540800327929279801585096115594243005473418388993323883327109768592329878951630574775801267355763 473176473 10000000000000000000000000000000000000000000000000000000000000000000000000000000000000000000000000000 (0) 1 (0) false 3 (.node (.node (.node .leaf 2707833727604264423258009525011381435639966883842526703494698807443242718855575399860846223501312688823016844029899802180321395 55306341 1953125000000000000000000000000000000000000000000000000000000000000000000000000000000000000000000000 (0) 1 (0) false 3 .leaf) 2707833727604264423258009525011381435639966883842526703494698807443242718855575399860846223501312688958416443593039891400753266 1 1000000000000000000000000000000000000000000000000000000000000000000000000000000000000000000 (0) 1 (0) false 3 .leaf) 2707833727604264423258009525011381435639966883842526703539560158697381383473901312965646888942772239927218899632618927388885106 1 1000000000000000000000000000000000000000000000000000000000000000000000000000000000000000000 (0) 1 (0) false 3 (.node .leaf 2707833727604264423258009525011381435639966883842526703712103817367145478159770209522572525256078205191843730554076758112469106 1 1000000000000000000000000000000000000000000000000000000000000000000000000000000000000000000 (0) 1 (0) false 3 .leaf))))
def table120 : Table := .node (.node (.node (.node (.node (.node .leaf 5678652271543481050549616336146869229304671980881548913023835530127743949876335318578310123075276756415279668234790955685908842545235 1 1000000000000000000000000000000000000000000000000000000000000000000000000000000000000000000 (0) 1 (0) false 3 .leaf) 5678736209808123315902279670556648940437271732202137839804973982593334745997864781072620336720383144670084560892903000740422655934578 1 1000000000000000000000000000000000000000000000000000000000000000000000000000000000000000000 (0) 1 (-1) false 3 .leaf) 5678736209808123315902279670556648940437271732202137839804974027454686000136529399398533441521048586129635529695359040319458644066418 1 1000000000000000000000000000000000000000000000000000000000000000000000000000000000000000000 (0) 1 (-1) false 3 (.node .leaf 5678736209808123315902279670556648940437271732202137839804974199998344669900624085267429998446684899435600794320189961777289367650418 1 1000000000000000000000000000000000000000000000000000000000000000000000000000000000000000000 (0) 1 (-1) false 3 .leaf)) 5678738917512738343764381191396668600515227830384122561287314593427211354333407660968973379308224908274520961514030794330872513298547 1 1000000000000000000000000000000000000000000000000000000000000000000000000000000000000000000 (0) 1 (0) false 3 (.node (.node (.node .leaf 11908962897976968492021794156321978298217600492093533425918489361854678427878114347029754841559181381284873925480591358916736102053170905177 20265 152 (0) 1 (0) false 6 .leaf) 11908991290103805557211167069950390187802945666835156442933962161514718689949481314802833945967890278771615127173978468024456825124434214995 1 1000000000000000000000000000000000000000000000000000000000000000000000000000000000000000000 (0) 1 (-1) false 3 .leaf) 11909144607744688363001724702038805549150560112989554758007208229467715361747281854890620204006263759773985186317241299745150469774967308409 20265 152 (0) 1 (0) false 6 (.node .leaf 11909144607744688363001724702038805549150560112989554758007208229467715361768673414135795882556597636647877927688736580698742437595121188985 20265 152 (0) 1 (0) false 6 .leaf))) 11909144607744688363001724702038805549150560112989554758007208229467715361850948642001856184673266393855157702194487661289480775364943806585 20265 152 (0) 1 (0) false 6 (.node (.node (.node (.node .leaf 11909172999871525428191097615667217438735905287731177775022680797543577149238914121356007884393824952611157177045673313808778853738512121971 1 1000000000000000000000000000000000000000000000000000000000000000000000000000000000000000000 (0) 1 (-1) false 3 .leaf) 24974893450892536540680350163493807393639518955399651076430451093801121942890482798527329621163915450878521805770392096854821943380957154053718081 5000000000000000 725188688661 (73479500000000000) 725188688661 (0) false 6 .leaf) 24975274523895329803545653467304943096588072610791499649454550929568976438049946874230413689050425448909948944311969576795848214605071769051070561 5000000000000000 725188688661 (73479500000000000) 725188688661 (0) false 6 (.node .leaf 24975274523895329803545653467304943096588072610791499649454550929568976438049946874230413689055289326358986189223751439919128004494486712554094689 5000000000000000 725188688661 (73479500000000000) 725188688661 (0) false 6 .leaf)) 24975274523895329803545653467304943096588072610791499649454550929568976438049946874230413689073996547316821746576758605777896427146082649104187489 5000000000000000 725188688661 (73479500000000000) 725188688661 (0) false 6 (.node (.node (.node .leaf 109841109626914857315980747824089366342061309086431640327832422012870857417989297303206217147639269217672949216757932572325235340103457744254945091130358759506 1 1000000000000000000000000000000000000000000000000000000000000000000000000000000000000000000000000 (0) 1 (0) false 3 .leaf) 109842785603705268150572091381710696266958105717133804055182261921244290919992919516211336844700385381219284304627607005502084440706687009711532776762128728178 1 1000000000000000000000000000000000000000000000000000000000000000000000000000000000000000000000000 (0) 1 (0) false 3 .leaf) 109842785603705268150572091381710696266958105717133804057002054524263756841070841369173197820695613906967612730281862749408410892605343344086732278268841427058 1 1000000000000000000000000000000000000000000000000000000000000000000000000000000000000000000000000 (0) 1 (0) false 3 (.node .leaf 109842785603705268150572091381710696266958105717133804064001256843569394999062848495949586189908031313691952828952077149048128015292483091683653437910044115058 1 1000000000000000000000000000000000000000000000000000000000000000000000000000000000000000000000000 (0) 1 (0) false 3 .leaf)))) 230351525673634893188783456768864696381649115146567661367829847074995382803441026717209144013437171583309893482998299864573207903049504303455924497515982737027104840 5000000000000000 725188688661 (0) 1 (0) false 6 (.node (.node (.node (.node (.node .leaf 230352624041627133659604302944710069547448247072821060768310382315425327833621584759958135728777642647013719440184970056716078802515659564755327484036050059224154194 196133 2 (0) 1 (0) false 6 .leaf) 230353392898755571463804827570420161601728024956600140032044341230855268942818617083824682231835171535963579813837862776898661967577304175813337052266358989949763666 1 1 (0) 1 (0) false 3 .leaf) 230353502736303746849923657260784662802986558473228287376794419489136144375851090818013524703605988718381260795822331809917011943968646615279746607754214133215526995 1 1000000000000000000000000000000000000000000000000000000000000000000000000000000000000000000000000 (0) 1 (0) false 3 (.node .leaf 230355040451712856851368362093417383676306281994237965432969018538520545619034927048457256796368285467923417205194363341458903348077767763347768255971330252917964904 5000000000000000 725188688661 (0) 1 (0) false 6 .leaf)) 230355040451712856851368362093417383676306281994237965436785400235528024614355333018239929465853769609899436995093711170198743013889006484227735698826422263683743848 5000000000000000 725188688661 (0) 1 (0) false 6 (.node (.node (.node .leaf 230355040451712856851368362093417383676306281994237965451463791377864482288664586748173285886951785540576436187014279742275049420855309256842995094422929997398278248 5000000000000000 725188688661 (0) 1 (0) false 6 .leaf) 230356138819705097322189208269262756842105413920491364833449553778950490649215485091206248511819184420519746348701396278439192812947924609373319746742132472989876338 196133 2 (0) 1 (0) false 6 .leaf) 230356138819705097322189208269262756842105413920491364833449553778950490649215485091206248511819184441911305593877074826453792186193481174148885999978670696521793650 196133 2 (0) 1 (0) false 6 (.node .leaf 230356138819705097322189208269262756842105413920491364833449553778950490649215485091206248511819184524186533459937376934202251314061006423285679281657663863952244850 196133 2 (0) 1 (0) false 6 .leaf))) 230356907676833535126389732894972848896385191804270444106577678545986280314362018687345581987490887261811891735884383084772410150884260633964234546756529672628994162 1 1 (0) 1 (0) false 3 (.node (.node (.node (.node .leaf 230356907676833535126389732894972848896385191804270444106577680365778883333827939765267434949351863257040417484212808739028154057210712532620568921956031179341693042 1 1 (0) 1 (0) false 3 .leaf) 230356907676833535126389732894972848896385191804270444106577687364981202639466097757274561725740232469457824208552907409242553696927835219760316518877190820544381042 1 1 (0) 1 (0) false 3 .leaf) 230357017514381710512508562585337350097643725320898591441933590952661307191444991149261637486537102602994784518018395286802707388996910075790560385852251786555949171 1 1000000000000000000000000000000000000000000000000000000000000000000000000000000000000000000000000 (0) 1 (0) false 3 (.node .leaf 483086078624411044206461221748961782743387130993783896868481854300970588973969948454577099991857593656989093333749701598298582742628678606915291425834499288491126771679315 1 1 (0) 1 (0) false 3 .leaf)) 483093449648286801857378481120158100008751997762709370398997591718072219733824936214204161956230489202883332377693405754996629492747228957039362408199549716013240364826739 1 1 (0) 1 (0) false 3 (.node (.node (.node .leaf 19596243377711873661795513118028071119815512482874586210448245330802299258329335814101675993958702058060588939603665901829815777659983974064593195281799310927906628623880376337930990849108415354129875009 5000000000000000 725188688661 (0) 1 (0) false 6 .leaf) 19596542381962766487267751085084987579273783000663400366258709695351279579490444680199978867574044130858633720297611656481688543425907054879604926945062968603668532393367585618139941322360143330548908129 5000000000000000 725188688661 (0) 1 (0) false 6 .leaf) 19596542381962766487267751085084987579273783000663400366258709695351279579490444680199978867577860512555641199292932062451471216095392539021580946734967180309857409304090606201891731984624807416478826593 5000000000000000 725188688661 (0) 1 (0) false 6 (.node .leaf 19596542381962766487267751085084987579273783000663400366258709695351279579490444680199978867592538903697977656967241316181404572516490554952257945926906456102891551268409916139398619147181207746978512993 5000000000000000 725188688661 (0) 1 (0) false 6 .leaf))))
def table121 : Table := .node table119 5678649563838866022687514815306849569226715882699564191309910851247176499342671067620675061210580005060012401186932786953190243303506 1 1000000000000000000000000000000000000000000000000000000000000000000000000000000000000000000 (0) 1 (-1) false 3 table120
def table122 : Table := .node table118 293583501067333606870467697261224172740529854169607708536359524871465080361179792924602304878463439933014120 5000000000000000 725188688661 (73479500000000000) 725188688661 (0) false 6 table121
def table123 : Table := .node table115 15177701392255947811235012128719375093722462868038273440639033368204445253002854469 5827473248256 25 (0) 1 (0) false 5 table122
def table124 : Table := .node table108 3450983422267316645154230485173330710128344605358928522541400779128910 1987543976517 244140625000000000000000000000000000000000000000000000000000000000000000000000000000000000000000000 (0) 1 (0) false 3 table123
def table125 : Table := .node table93 178412937379403579128001577148033417663742021 5 9 (-5463) 20 (0) false 1 table124
def table126 : Table := .node table62 40566269919347566697316073078963 1 1000000000000000000000000000 (0) 1 (0) false 3 table125

/-- the numbers of the quantities -/
def kindLabels : List (Str × Nat) := [(s!!"Time", 0), (s!!"Temperature", 1), (s!!"TemperatureGradient", 2), (s!!"Volume", 3), (s!!"Length", 4), (s!!"Area", 5), (s!!"Pressure", 6), (s!!"PressureGradient", 10), (s!!"Weight", 3), (s!!"Mass", 9), (s!!"Density", 10), (s!!"Compressibility", 11), (s!!"Rate", 12), (s!!"Velocity", 13), (s!!"dataBYTE", 14), (s!!"dataBIT", 14), (s!!"Viscosity", 16), (s!!"Permeability", 5), (s!!"Force", 9), (s!!"Energy", 19), (s!!"Power", 20), (s!!"Voltage", 21), (s!!"Current", 22), (s!!"Resistance", 23), (s!!"Impedance", 23), (s!!"Conductance", 25), (s!!"Capacitance", 1), (s!!"Charge", 27), (s!!"Inductance", 28), (s!!"Frequency", 29), (s!!"ProductivityIndex", 30), (s!!"Acceleration", 31), (s!!"Dimensionless", 32), (s!!"Percentage", 32), (s!!"Date", 34), (s!!"UserUnits", 35), (s!!"otherUnits", 36)]

/-- the readings of the 2608 names of the shipped data -/
def shippedTable : Table := table126

end Unyts

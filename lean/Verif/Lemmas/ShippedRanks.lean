import Verif.Lemmas.ShippedKinds

/- Written by tools/ranktable.py: checked, not trusted. -/
namespace Unyts

/-- A search tree from the codes of the names to their positions, islands and distances from the hub. -/
inductive Ranks where
  | leaf
  | node (l : Ranks) (k : Nat) (j i d : Nat) (r : Ranks)

def ranks0 : Ranks := .node (.node (.node (.node (.node (.node .leaf 1 0 49 1 .leaf) 2097186 1 10 3 .leaf) 2097187 2 2 9 (.node (.node .leaf 2097189 3 49 2 .leaf) 2097191 4 10 2 .leaf)) 2097217 5 37 1 (.node (.node (.node .leaf 2097218 6 31 1 .leaf) 2097219 7 1 2 .leaf) 2097220 8 11 4 (.node .leaf 2097222 9 1 1 .leaf))) 2097223 10 39 2 (.node (.node (.node (.node .leaf 2097224 11 41 0 .leaf) 2097226 12 34 3 .leaf) 2097227 13 1 3 (.node .leaf 2097228 14 41 2 .leaf)) 2097229 15 10 3 (.node (.node (.node .leaf 2097230 16 22 1 .leaf) 2097233 17 40 1 .leaf) 2097234 18 1 2 (.node .leaf 2097235 19 0 4 .leaf)))) 2097238 20 36 1 (.node (.node (.node (.node (.node .leaf 2097239 21 35 1 .leaf) 2097250 22 31 2 .leaf) 2097252 23 0 2 (.node .leaf 2097255 24 2 11 .leaf)) 2097256 25 0 1 (.node (.node (.node .leaf 2097258 26 34 4 .leaf) 2097260 27 2 4 .leaf) 2097261 28 10 2 (.node .leaf 2097267 29 0 3 .leaf))) 2097268 30 2 13 (.node (.node (.node (.node .leaf 2097271 31 0 3 .leaf) 2097273 32 0 3 .leaf) 2098089 33 38 1 (.node .leaf 2105639 34 39 0 .leaf)) 4398182826069 35 10 4 (.node (.node (.node .leaf 4398187020358 36 2 4 .leaf) 4398187020365 37 2 2 .leaf) 4398187020368 38 32 1 (.node .leaf 4398191214657 39 37 2 .leaf))))
def ranks1 : Ranks := .node (.node (.node (.node (.node (.node .leaf 4398191214660 41 11 5 .leaf) 4398191214662 42 1 2 .leaf) 4398191214664 43 41 1 (.node (.node .leaf 4398191214673 44 40 2 .leaf) 4398191214678 45 36 2 .leaf)) 4398191214679 46 35 2 (.node (.node (.node .leaf 4398191214690 47 31 3 .leaf) 4398191214695 48 2 12 .leaf) 4398191214700 49 2 5 (.node .leaf 4398191214701 50 10 3 .leaf))) 4398191214707 51 0 4 (.node (.node (.node (.node .leaf 4398191215529 52 38 2 .leaf) 4398191223079 53 39 1 .leaf) 4398193311828 54 10 3 (.node .leaf 4398195408961 55 37 2 .leaf)) 4398195408962 56 31 2 (.node (.node (.node .leaf 4398195408964 57 11 5 .leaf) 4398195408966 58 1 2 .leaf) 4398195408968 59 41 1 (.node .leaf 4398195408977 60 40 2 .leaf)))) 4398195408982 61 36 2 (.node (.node (.node (.node (.node .leaf 4398195408983 62 35 2 .leaf) 4398195408994 63 31 3 .leaf) 4398195408999 64 2 12 (.node .leaf 4398195409004 65 2 5 .leaf)) 4398195409005 66 10 3 (.node (.node (.node .leaf 4398195409011 67 0 4 .leaf) 4398195409833 68 38 2 .leaf) 4398195417383 69 39 1 (.node .leaf 4398197506120 70 0 2 .leaf))) 4398197506128 71 35 3 (.node (.node (.node (.node .leaf 4398197506130 72 0 2 .leaf) 4398197506138 73 42 2 .leaf) 4398197506170 74 42 1 (.node .leaf 4398199603278 75 10 4 .leaf)) 4398203797569 76 37 2 (.node (.node (.node .leaf 4398203797570 77 31 2 .leaf) 4398203797572 78 11 5 .leaf) 4398203797574 79 1 2 (.node .leaf 4398203797576 80 41 1 .leaf))))
def ranks2 : Ranks := .node ranks0 4398191214658 40 31 2 ranks1
def ranks3 : Ranks := .node (.node (.node (.node (.node (.node .leaf 4398203797584 82 21 3 .leaf) 4398203797585 83 40 2 .leaf) 4398203797590 84 36 2 (.node (.node .leaf 4398203797591 85 35 2 .leaf) 4398203797602 86 31 3 .leaf)) 4398203797607 87 2 12 (.node (.node (.node .leaf 4398203797612 88 2 5 .leaf) 4398203797613 89 10 3 .leaf) 4398203797619 90 0 4 (.node .leaf 4398203798441 91 38 2 .leaf))) 4398203805991 92 39 1 (.node (.node (.node (.node .leaf 4398205894722 93 2 10 .leaf) 4398205894745 94 10 4 .leaf) 4398207991858 95 11 2 (.node .leaf 4398207991859 96 2 1 .leaf)) 4398207991873 97 37 2 (.node (.node (.node .leaf 4398207991874 98 31 2 .leaf) 4398207991876 99 11 5 .leaf) 4398207991878 100 1 2 (.node .leaf 4398207991880 101 41 1 .leaf)))) 4398207991887 102 0 4 (.node (.node (.node (.node (.node .leaf 4398207991889 103 40 2 .leaf) 4398207991891 104 0 5 .leaf) 4398207991894 105 36 2 (.node .leaf 4398207991895 106 35 2 .leaf)) 4398207991906 107 31 3 (.node (.node (.node .leaf 4398207991911 108 2 12 .leaf) 4398207991916 109 2 5 .leaf) 4398207991917 110 10 3 (.node .leaf 4398207991923 111 0 4 .leaf))) 4398207991986 112 11 2 (.node (.node (.node (.node .leaf 4398207991987 113 2 2 .leaf) 4398207992745 114 38 2 .leaf) 4398208000295 115 39 1 (.node .leaf 4398210089043 116 0 5 .leaf)) 4398212186202 117 2 7 (.node (.node (.node .leaf 4398214283329 118 37 2 .leaf) 4398214283330 119 31 2 .leaf) 4398214283332 120 11 5 (.node .leaf 4398214283334 121 1 2 .leaf))))
def ranks4 : Ranks := .node (.node (.node (.node (.node (.node .leaf 4398214283345 123 40 2 .leaf) 4398214283350 124 36 2 .leaf) 4398214283351 125 35 2 (.node (.node .leaf 4398214283361 126 12 0 .leaf) 4398214283362 127 31 3 .leaf)) 4398214283367 128 2 12 (.node (.node (.node .leaf 4398214283372 129 2 5 .leaf) 4398214283373 130 10 3 .leaf) 4398214283379 131 0 4 (.node .leaf 4398214284201 132 38 2 .leaf))) 4398214291751 133 39 1 (.node (.node (.node (.node .leaf 4398216380481 134 37 2 .leaf) 4398216380484 135 11 5 .leaf) 4398216380486 136 1 2 (.node .leaf 4398216380488 137 41 1 .leaf)) 4398216380497 138 40 2 (.node (.node (.node .leaf 4398216380502 139 36 2 .leaf) 4398216380503 140 35 2 .leaf) 4398216380519 141 2 12 (.node .leaf 4398216380524 142 2 5 .leaf)))) 4398216380525 143 10 3 (.node (.node (.node (.node (.node .leaf 4398216380531 144 0 4 .leaf) 4398216381353 145 38 2 .leaf) 4398216388903 146 39 1 (.node .leaf 4398218477633 147 37 2 .leaf)) 4398218477634 148 2 5 (.node (.node (.node .leaf 4398218477636 149 11 5 .leaf) 4398218477638 150 1 2 .leaf) 4398218477640 151 41 1 (.node .leaf 4398218477649 152 40 2 .leaf))) 4398218477654 153 36 2 (.node (.node (.node (.node .leaf 4398218477655 154 35 2 .leaf) 4398218477671 155 2 12 .leaf) 4398218477676 156 2 5 (.node .leaf 4398218477677 157 10 3 .leaf)) 4398218477683 158 0 4 (.node (.node (.node .leaf 4398218478505 159 38 2 .leaf) 4398218486055 160 39 1 .leaf) 4398220574770 161 52 2 (.node .leaf 4398220574803 162 0 4 .leaf))))
def ranks5 : Ranks := .node ranks3 4398214283336 122 41 1 ranks4
def ranks6 : Ranks := .node ranks2 4398203797578 81 34 3 ranks5
def ranks7 : Ranks := .node (.node (.node (.node (.node (.node .leaf 4398222671938 164 31 2 .leaf) 4398222671940 165 11 5 .leaf) 4398222671942 166 1 2 (.node (.node .leaf 4398222671944 167 41 1 .leaf) 4398222671953 168 40 2 .leaf)) 4398222671958 169 36 2 (.node (.node (.node .leaf 4398222671959 170 35 2 .leaf) 4398222671970 171 31 3 .leaf) 4398222671975 172 2 12 (.node .leaf 4398222671980 173 2 5 .leaf))) 4398222671981 174 10 3 (.node (.node (.node (.node .leaf 4398222671987 175 0 4 .leaf) 4398222672809 176 38 2 .leaf) 4398222680359 177 39 1 (.node .leaf 4398226866241 178 35 1 .leaf)) 4398228963397 179 0 3 (.node (.node (.node .leaf 4398228963400 180 34 3 .leaf) 4398228963411 181 34 5 .leaf) 4398228963432 182 34 2 (.node .leaf 4398228963443 183 34 4 .leaf)))) 4398233157697 184 37 2 (.node (.node (.node (.node (.node .leaf 4398233157698 185 31 2 .leaf) 4398233157700 186 11 5 .leaf) 4398233157702 187 1 2 (.node .leaf 4398233157704 188 41 1 .leaf)) 4398233157713 189 40 2 (.node (.node (.node .leaf 4398233157718 190 36 2 .leaf) 4398233157719 191 35 2 .leaf) 4398233157721 192 0 4 (.node .leaf 4398233157730 193 31 3 .leaf))) 4398233157735 194 2 12 (.node (.node (.node (.node .leaf 4398233157740 195 2 5 .leaf) 4398233157741 196 10 3 .leaf) 4398233157747 197 0 4 (.node .leaf 4398233158569 198 38 2 .leaf)) 4398233166119 199 39 1 (.node (.node (.node .leaf 4398235254849 200 37 2 .leaf) 4398235254850 201 31 2 .leaf) 4398235254852 202 11 5 (.node .leaf 4398235254854 203 1 2 .leaf))))
def ranks8 : Ranks := .node (.node (.node (.node (.node (.node .leaf 4398235254865 205 40 2 .leaf) 4398235254870 206 36 2 .leaf) 4398235254871 207 35 2 (.node (.node .leaf 4398235254882 208 31 3 .leaf) 4398235254887 209 2 12 .leaf)) 4398235254892 210 2 5 (.node (.node (.node .leaf 4398235254893 211 10 3 .leaf) 4398235254899 212 0 4 .leaf) 4398235255721 213 38 2 (.node .leaf 4398235263271 214 39 1 .leaf))) 4398249934913 215 37 2 (.node (.node (.node (.node .leaf 4398249934916 216 11 5 .leaf) 4398249934918 217 1 2 .leaf) 4398249934920 218 41 1 (.node .leaf 4398249934929 219 40 2 .leaf)) 4398249934934 220 36 2 (.node (.node (.node .leaf 4398249934935 221 35 2 .leaf) 4398249934951 222 2 12 .leaf) 4398249934956 223 2 5 (.node .leaf 4398249934957 224 10 3 .leaf)))) 4398249934963 225 0 4 (.node (.node (.node (.node (.node .leaf 4398249934965 226 10 3 .leaf) 4398249935785 227 38 2 .leaf) 4398249943335 228 39 1 (.node .leaf 4398254129217 229 37 2 .leaf)) 4398254129220 230 11 5 (.node (.node (.node .leaf 4398254129222 231 1 2 .leaf) 4398254129224 232 41 1 .leaf) 4398254129232 233 32 0 (.node .leaf 4398254129233 234 40 2 .leaf))) 4398254129238 235 36 2 (.node (.node (.node (.node .leaf 4398254129239 236 35 2 .leaf) 4398254129251 237 2 3 .leaf) 4398254129254 238 2 3 (.node .leaf 4398254129255 239 2 12 .leaf)) 4398254129256 240 10 2 (.node (.node (.node .leaf 4398254129260 241 2 5 .leaf) 4398254129261 242 10 3 .leaf) 4398254129267 243 0 4 (.node .leaf 4398254130089 244 38 2 .leaf))))
def ranks9 : Ranks := .node ranks7 4398235254856 204 41 1 ranks8
def ranks10 : Ranks := .node (.node (.node (.node (.node (.node .leaf 4398256226369 246 37 2 .leaf) 4398256226372 247 11 5 .leaf) 4398256226374 248 1 2 (.node (.node .leaf 4398256226376 249 41 1 .leaf) 4398256226385 250 40 2 .leaf)) 4398256226390 251 36 2 (.node (.node (.node .leaf 4398256226391 252 35 2 .leaf) 4398256226407 253 2 12 .leaf) 4398256226412 254 2 5 (.node .leaf 4398256226413 255 10 3 .leaf))) 4398256226418 256 2 9 (.node (.node (.node (.node .leaf 4398256226419 257 0 4 .leaf) 4398256227241 258 38 2 .leaf) 4398256234791 259 39 1 (.node .leaf 4398260420673 260 37 2 .leaf)) 4398260420676 261 11 5 (.node (.node (.node .leaf 4398260420678 262 1 2 .leaf) 4398260420680 263 41 1 .leaf) 4398260420689 264 40 2 (.node .leaf 4398260420694 265 36 2 .leaf)))) 4398260420695 266 35 2 (.node (.node (.node (.node (.node .leaf 4398260420711 267 2 12 .leaf) 4398260420716 268 2 5 .leaf) 4398260420717 269 10 3 (.node .leaf 4398260420723 270 0 4 .leaf)) 4398260420724 271 10 2 (.node (.node (.node .leaf 4398260421545 272 38 2 .leaf) 4398260429095 273 39 1 .leaf) 4398262517865 274 2 7 (.node .leaf 4398262517874 275 2 16 .leaf))) 4398264614977 276 37 2 (.node (.node (.node (.node .leaf 4398264614980 277 11 5 .leaf) 4398264614982 278 1 2 .leaf) 4398264614984 279 41 1 (.node .leaf 4398264614993 280 40 2 .leaf)) 4398264614998 281 36 2 (.node (.node (.node .leaf 4398264614999 282 35 2 .leaf) 4398264615015 283 2 12 .leaf) 4398264615016 284 0 1 (.node .leaf 4398264615020 285 2 5 .leaf))))
def ranks11 : Ranks := .node (.node (.node (.node (.node (.node .leaf 4398264615024 287 35 2 .leaf) 4398264615026 288 0 1 .leaf) 4398264615027 289 0 4 (.node .leaf 4398264615849 290 38 2 .leaf)) 4398264623399 291 39 1 (.node (.node (.node .leaf 4398266712174 292 10 3 .leaf) 4398270906433 293 37 2 .leaf) 4398270906434 294 31 2 (.node .leaf 4398270906436 295 11 5 .leaf))) 4398270906438 296 1 2 (.node (.node (.node (.node .leaf 4398270906440 297 41 1 .leaf) 4398270906442 298 34 2 .leaf) 4398270906449 299 40 2 (.node .leaf 4398270906454 300 36 2 .leaf)) 4398270906455 301 35 2 (.node (.node (.node .leaf 4398270906466 302 31 3 .leaf) 4398270906471 303 2 10 .leaf) 4398270906474 304 34 3 (.node .leaf 4398270906476 305 2 5 .leaf)))) 4398270906477 306 10 3 (.node (.node (.node (.node (.node .leaf 4398270906480 307 21 2 .leaf) 4398270906483 308 0 4 .leaf) 4398270907305 309 38 2 (.node .leaf 4398270914855 310 39 1 .leaf)) 4398273003618 311 2 9 (.node (.node (.node .leaf 4398273003641 312 10 3 .leaf) 4398275100722 313 11 1 .leaf) 4398275100723 314 2 0 (.node .leaf 4398275100737 315 37 2 .leaf))) 4398275100740 316 11 5 (.node (.node (.node (.node .leaf 4398275100742 317 1 2 .leaf) 4398275100744 318 41 1 .leaf) 4398275100753 319 40 2 (.node .leaf 4398275100758 320 36 2 .leaf)) 4398275100759 321 35 2 (.node (.node (.node .leaf 4398275100775 322 2 12 .leaf) 4398275100777 323 10 4 .leaf) 4398275100780 324 2 4 (.node .leaf 4398275100781 325 10 3 .leaf))))
def ranks12 : Ranks := .node ranks10 4398264615021 286 10 3 ranks11
def ranks13 : Ranks := .node ranks9 4398254137639 245 39 1 ranks12
def ranks14 : Ranks := .node ranks6 4398222671937 163 37 2 ranks13
def ranks15 : Ranks := .node (.node (.node (.node (.node (.node .leaf 4398275100787 327 0 4 .leaf) 4398275100850 328 11 1 .leaf) 4398275100851 329 2 1 (.node (.node .leaf 4398275101609 330 38 2 .leaf) 4398275109159 331 39 1 .leaf)) 4398277197889 332 37 2 (.node (.node (.node .leaf 4398277197892 333 11 5 .leaf) 4398277197894 334 1 2 .leaf) 4398277197896 335 41 1 (.node .leaf 4398277197905 336 40 2 .leaf))) 4398277197910 337 36 2 (.node (.node (.node (.node .leaf 4398277197911 338 35 2 .leaf) 4398277197927 339 2 12 .leaf) 4398277197932 340 2 5 (.node .leaf 4398277197933 341 10 3 .leaf)) 4398277197939 342 0 4 (.node (.node (.node .leaf 4398277198761 343 38 2 .leaf) 4398277206311 344 39 1 .leaf) 4398279295098 345 2 6 (.node .leaf 4398281392193 346 37 2 .leaf)))) 4398281392196 347 11 5 (.node (.node (.node (.node (.node .leaf 4398281392198 348 1 2 .leaf) 4398281392200 349 41 1 .leaf) 4398281392209 350 40 2 (.node .leaf 4398281392214 351 36 2 .leaf)) 4398281392215 352 35 2 (.node (.node (.node .leaf 4398281392227 353 2 3 .leaf) 4398281392231 354 2 12 .leaf) 4398281392236 355 2 5 (.node .leaf 4398281392237 356 10 3 .leaf))) 4398281392243 357 0 4 (.node (.node (.node (.node .leaf 4398281392244 358 2 7 .leaf) 4398281393065 359 38 2 .leaf) 4398281400615 360 39 1 (.node .leaf 4398283489345 361 37 2 .leaf)) 4398283489348 362 11 5 (.node (.node (.node .leaf 4398283489350 363 1 2 .leaf) 4398283489352 364 41 1 .leaf) 4398283489361 365 40 2 (.node .leaf 4398283489366 366 36 2 .leaf))))
def ranks16 : Ranks := .node (.node (.node (.node (.node (.node .leaf 4398283489383 368 2 12 .leaf) 4398283489388 369 2 5 .leaf) 4398283489389 370 10 3 (.node (.node .leaf 4398283489394 371 2 11 .leaf) 4398283489395 372 0 4 .leaf)) 4398283489396 373 2 6 (.node (.node (.node .leaf 4398283490217 374 38 2 .leaf) 4398283497767 375 39 1 .leaf) 4398285586497 376 37 2 (.node .leaf 4398285586500 377 11 5 .leaf))) 4398285586502 378 1 2 (.node (.node (.node (.node .leaf 4398285586504 379 41 1 .leaf) 4398285586513 380 40 2 .leaf) 4398285586518 381 36 2 (.node .leaf 4398285586519 382 35 2 .leaf)) 4398285586530 383 2 4 (.node (.node (.node .leaf 4398285586532 384 10 2 .leaf) 4398285586535 385 2 12 .leaf) 4398285586540 386 2 5 (.node .leaf 4398285586541 387 10 3 .leaf)))) 4398285586547 388 0 4 (.node (.node (.node (.node (.node .leaf 4398285587369 389 38 2 .leaf) 4398285594919 390 39 1 .leaf) 4398287683634 391 52 1 (.node .leaf 4398287683699 392 0 3 .leaf)) 4398287683700 393 2 10 (.node (.node (.node .leaf 4398289780837 394 10 4 .leaf) 4398289780840 395 10 4 .leaf) 4398291877953 396 37 2 (.node .leaf 4398291877956 397 11 5 .leaf))) 4398291877958 398 1 2 (.node (.node (.node (.node .leaf 4398291877960 399 41 1 .leaf) 4398291877969 400 40 2 .leaf) 4398291877974 401 36 2 (.node .leaf 4398291877975 402 35 2 .leaf)) 4398291877991 403 2 12 (.node (.node (.node .leaf 4398291877996 404 2 5 .leaf) 4398291877997 405 10 3 .leaf) 4398291878003 406 0 4 (.node .leaf 4398291878825 407 38 2 .leaf))))
def ranks17 : Ranks := .node ranks15 4398283489367 367 35 2 ranks16
def ranks18 : Ranks := .node (.node (.node (.node (.node (.node .leaf 4398296072293 409 0 3 .leaf) 4398296072296 410 34 3 .leaf) 4398296072307 411 34 5 (.node (.node .leaf 4398300266561 412 37 2 .leaf) 4398300266564 413 11 5 .leaf)) 4398300266566 414 1 2 (.node (.node (.node .leaf 4398300266568 415 41 1 .leaf) 4398300266577 416 40 2 .leaf) 4398300266582 417 36 2 (.node .leaf 4398300266583 418 35 2 .leaf))) 4398300266596 419 10 1 (.node (.node (.node (.node .leaf 4398300266599 420 2 12 .leaf) 4398300266604 421 2 5 .leaf) 4398300266605 422 10 3 (.node .leaf 4398300266611 423 0 4 .leaf)) 4398300266617 424 0 3 (.node (.node (.node .leaf 4398300267433 425 38 2 .leaf) 4398300274983 426 39 1 .leaf) 4398302363713 427 37 2 (.node .leaf 4398302363716 428 11 5 .leaf)))) 4398302363718 429 1 2 (.node (.node (.node (.node (.node .leaf 4398302363720 430 41 1 .leaf) 4398302363729 431 40 2 .leaf) 4398302363734 432 36 2 (.node .leaf 4398302363735 433 35 2 .leaf)) 4398302363751 434 2 12 (.node (.node (.node .leaf 4398302363756 435 2 5 .leaf) 4398302363757 436 10 3 .leaf) 4398302363763 437 0 4 (.node .leaf 4398302364585 438 38 2 .leaf))) 4398302372135 439 39 1 (.node (.node (.node (.node .leaf 4398426095681 440 37 2 .leaf) 4398426095684 441 11 5 .leaf) 4398426095686 442 1 2 (.node .leaf 4398426095688 443 41 1 .leaf)) 4398426095697 444 40 2 (.node (.node (.node .leaf 4398426095702 445 36 2 .leaf) 4398426095703 446 35 2 .leaf) 4398426095719 447 2 12 (.node .leaf 4398426095724 448 2 5 .leaf))))
def ranks19 : Ranks := .node (.node (.node (.node (.node (.node .leaf 4398426095731 450 0 4 .leaf) 4398426096553 451 38 2 .leaf) 4398426104103 452 39 1 (.node .leaf 9223587541232386131 453 42 2 .leaf)) 9223587541232386163 454 42 1 (.node (.node (.node .leaf 9223657910045769801 455 13 3 .leaf) 9223657910049964101 456 11 5 .leaf) 9223657910054158413 457 12 4 (.node .leaf 9223657910316302415 458 0 4 .leaf))) 9223662308060823634 459 12 4 (.node (.node (.node (.node .leaf 9223662308062920780 460 2 6 .leaf) 9223662308065017926 461 2 5 .leaf) 9223662308077600852 462 31 2 (.node .leaf 9223662308100669525 463 34 3 .leaf)) 9223662308132126822 464 2 4 (.node (.node (.node .leaf 9223662308144709748 465 31 2 .leaf) 9223662308163584098 466 2 5 .leaf) 9223666706107334732 467 34 5 (.node .leaf 9223666706122014770 468 11 5 .leaf)))) 9223666706122014898 469 11 5 (.node (.node (.node (.node (.node .leaf 9223666706132500530 470 11 3 .leaf) 9223666706132500658 471 11 3 .leaf) 9223671104153845849 472 0 2 (.node .leaf 9223671104204177486 473 22 3 .leaf)) 9223671104447447105 474 0 3 (.node (.node (.node .leaf 9223671104514555969 475 0 2 .leaf) 9223675502215037050 476 42 2 .leaf) 9223675502231814241 477 12 1 (.node .leaf 9223675502246494312 478 34 3 .leaf))) 9223675502246494323 479 34 5 (.node (.node (.node (.node .leaf 9223675502292631602 480 11 2 .leaf) 9223675502292631603 481 2 1 .leaf) 9223675502292631730 482 11 2 (.node .leaf 9223675502292631731 483 2 2 .leaf)) 9223679900286713906 484 11 3 (.node (.node (.node .leaf 9223679900286713907 485 2 4 .leaf) 9223679900286714034 486 11 3 .leaf) 9223684298293379148 487 2 6 (.node .leaf 9223684298308059258 488 42 2 .leaf))))
def ranks20 : Ranks := .node ranks18 4398426095725 449 10 3 ranks19
def ranks21 : Ranks := .node ranks17 4398291886375 408 39 1 ranks20
def ranks22 : Ranks := .node (.node (.node (.node (.node (.node .leaf 9223684298339516520 490 34 3 .leaf) 9223684298339516531 491 34 5 .leaf) 9223684298385653810 492 11 2 (.node (.node .leaf 9223684298385653811 493 2 1 .leaf) 9223684298385653938 494 11 2 .leaf)) 9223684298385653939 495 2 2 (.node (.node (.node .leaf 9223688696365056050 496 11 3 .leaf) 9223688696365056178 497 11 3 .leaf) 9223688696371347521 498 12 2 (.node .leaf 9223693094413664306 499 11 4 .leaf))) 9223693094413664434 500 11 4 (.node (.node (.node (.node .leaf 9223697492395163731 501 35 2 .leaf) 9223697492395163763 502 35 1 .leaf) 9223701890492006470 503 21 2 (.node .leaf 9223701890492006477 504 21 3 .leaf)) 9223701890494103674 505 42 2 (.node (.node (.node .leaf 9223701890504589362 506 11 3 .leaf) 9223701890504589490 507 11 3 .leaf) 9223701890510880833 508 12 2 (.node .leaf 9223701890510880840 509 30 1 .leaf)))) 9223701890510880865 510 12 1 (.node (.node (.node (.node (.node .leaf 9223701890525560904 511 34 2 .leaf) 9223701890525560936 512 34 3 .leaf) 9223701890525560947 513 34 5 (.node .leaf 9223701890559115373 514 21 2 .leaf)) 9223701890571698226 515 11 2 (.node (.node (.node .leaf 9223701890571698227 516 2 1 .leaf) 9223701890571698354 517 11 2 .leaf) 9223701890571698355 518 2 2 (.node .leaf 9223706288528031827 519 2 10 .leaf))) 9223706288557391939 520 12 6 (.node (.node (.node (.node .leaf 9223706288576266322 521 10 4 .leaf) 9223710686524211277 522 11 2 .leaf) 9223710686576640070 523 2 5 (.node .leaf 9223710686580834387 524 0 4 .leaf)) 9223710686587125882 525 42 2 (.node (.node (.node .leaf 9223710686589222962 526 11 6 .leaf) 9223710686589222990 527 0 3 .leaf) 9223710686589223090 528 11 6 (.node .leaf 9223710686603903048 529 30 2 .leaf))))
def ranks23 : Ranks := .node (.node (.node (.node (.node (.node .leaf 9223710686608097346 531 2 6 .leaf) 9223710686618583144 532 34 3 .leaf) 9223710686618583155 533 34 5 (.node (.node .leaf 9223710686643748966 534 2 4 .leaf) 9223710686664720434 535 11 2 .leaf)) 9223710686664720435 536 2 1 (.node (.node (.node .leaf 9223710686664720562 537 11 2 .leaf) 9223710686664720563 538 2 2 .leaf) 9223710686675206242 539 2 5 (.node .leaf 9223715084570722381 540 34 4 .leaf))) 9223715084570722413 541 34 3 (.node (.node (.node (.node .leaf 9223719482680148045 542 38 1 .leaf) 9223719482717896787 543 2 7 .leaf) 9223719482747256941 544 38 0 (.node .leaf 9223723880726659194 545 42 2 .leaf)) 9223723880743436385 546 12 1 (.node (.node (.node .leaf 9223723880749727817 547 12 5 .leaf) 9223723880758116456 548 34 3 .leaf) 9223723880758116467 549 34 5 (.node .leaf 9223723880804253746 550 11 2 .leaf)))) 9223723880804253747 551 2 1 (.node (.node (.node (.node (.node .leaf 9223723880804253874 552 11 2 .leaf) 9223723880804253875 553 2 2 .leaf) 9223728278720741462 554 1 3 (.node .leaf 9223728278773170298 555 42 2 .leaf)) 9223728278789947489 556 12 1 (.node (.node (.node .leaf 9223728278804627560 557 34 3 .leaf) 9223728278804627571 558 34 5 .leaf) 9223728278850764850 559 11 2 (.node .leaf 9223728278850764851 560 2 1 .leaf))) 9223728278850764978 561 11 2 (.node (.node (.node (.node .leaf 9223728278850764979 562 2 2 .leaf) 9223732676811292722 563 11 5 .leaf) 9223732676811292850 564 11 5 (.node .leaf 9223732676813389890 565 2 5 .leaf)) 9223732676819681402 566 42 2 (.node (.node (.node .leaf 9223732676834361412 567 10 2 .leaf) 9223732676836458573 568 43 0 .leaf) 9223732676836458593 569 12 1 (.node .leaf 9223732676851138664 570 34 3 .leaf))))
def ranks24 : Ranks := .node ranks22 9223710686603903073 530 12 1 ranks23
def ranks25 : Ranks := .node (.node (.node (.node (.node (.node .leaf 9223732676897275954 572 11 2 .leaf) 9223732676897275955 573 2 1 .leaf) 9223732676897276082 574 11 2 (.node (.node .leaf 9223732676897276083 575 2 2 .leaf) 9223737074803277907 576 52 1 .leaf)) 9223737074809569329 577 42 2 (.node (.node (.node .leaf 9223737074855706694 578 2 4 .leaf) 9223737074859900995 579 0 4 .leaf) 9223737074864095303 580 15 2 (.node .leaf 9223737074864095311 581 13 4 .leaf))) 9223737074864095319 582 13 4 (.node (.node (.node (.node .leaf 9223737074876678195 583 2 3 .leaf) 9223737074876678323 584 2 3 .leaf) 9223737074885066829 585 11 2 (.node .leaf 9223737074891358274 586 2 4 .leaf)) 9223737074931204167 587 15 1 (.node (.node (.node .leaf 9223737074931204175 588 13 3 .leaf) 9223737074931204183 589 13 3 .leaf) 9223737074943787059 590 2 2 (.node .leaf 9223737074943787187 591 2 4 .leaf)))) 9223741472902217798 592 2 5 (.node (.node (.node (.node (.node .leaf 9223741472906412082 593 11 5 .leaf) 9223741472906412210 594 11 5 .leaf) 9223741472912703538 595 11 5 (.node .leaf 9223741472912703610 596 42 2 .leaf)) 9223741472912703666 597 11 5 (.node (.node (.node .leaf 9223741472927383630 598 2 14 .leaf) 9223741472929480801 599 12 1 .leaf) 9223741472944160872 600 34 3 (.node .leaf 9223741472944160883 601 34 5 .leaf))) 9223741472969326694 602 2 4 (.node (.node (.node (.node .leaf 9223741472990298162 603 11 2 .leaf) 9223741472990298163 604 2 1 .leaf) 9223741472990298290 605 11 2 (.node .leaf 9223741472990298291 606 2 2 .leaf)) 9223741472994492526 607 2 13 (.node (.node (.node .leaf 9223741473000783970 608 2 5 .leaf) 9223750268942811201 609 35 1 .leaf) 9223750268942811206 610 40 1 (.node .leaf 9223750268953296961 611 38 1 .leaf))))
def ranks26 : Ranks := .node (.node (.node (.node (.node (.node .leaf 9223754666989322323 613 34 5 .leaf) 9223754666989322344 614 34 4 .leaf) 9223754666989322355 615 34 4 (.node .leaf 9223754666999808065 616 36 1 .leaf)) 9223754666999808086 617 37 1 (.node (.node (.node .leaf 9223763463136870450 618 11 4 .leaf) 9223763463136870578 619 11 4 .leaf) 9223763463145259130 620 42 2 (.node .leaf 9223763463162036321 621 12 1 .leaf))) 9223763463176716392 622 34 3 (.node (.node (.node (.node .leaf 9223763463176716403 623 34 5 .leaf) 9223763463222853682 624 11 2 .leaf) 9223763463222853683 625 2 1 (.node .leaf 9223763463222853810 626 11 2 .leaf)) 9223763463222853811 627 2 2 (.node (.node (.node .leaf 9223767861191770234 628 42 2 .leaf) 9223767861208547425 629 12 1 .leaf) 9223767861223227496 630 34 3 (.node .leaf 9223767861223227507 631 34 5 .leaf)))) 9223767861269364786 632 11 2 (.node (.node (.node (.node (.node .leaf 9223767861269364787 633 2 1 .leaf) 9223767861269364914 634 11 2 .leaf) 9223767861269364915 635 2 2 (.node .leaf 9223798647517347962 636 42 2 .leaf)) 9223798647534125153 637 12 1 (.node (.node (.node .leaf 9223798647548805224 638 34 3 .leaf) 9223798647548805235 639 34 5 .leaf) 9223798647594942514 640 11 2 (.node .leaf 9223798647594942515 641 2 1 .leaf))) 9223798647594942642 642 11 2 (.node (.node (.node (.node .leaf 9223798647594942643 643 2 2 .leaf) 9223798647601234025 644 13 4 .leaf) 9223798647605428325 645 11 4 (.node .leaf 9223798647609622637 646 12 3 .leaf)) 9223798647871766639 647 0 3 (.node (.node (.node .leaf 9223803045616287858 648 12 3 .leaf) 9223803045618385004 649 2 5 .leaf) 9223803045633065076 650 31 1 (.node .leaf 9223803045656133749 651 34 4 .leaf))))
def ranks27 : Ranks := .node ranks25 9223754666989322312 612 34 5 ranks26
def ranks28 : Ranks := .node ranks24 9223732676851138675 571 34 5 ranks27
def ranks29 : Ranks := .node ranks21 9223684298324836449 489 12 1 ranks28
def ranks30 : Ranks := .node ranks14 4398275100783 326 0 3 ranks29
def ranks31 : Ranks := .node (.node (.node (.node (.node (.node .leaf 9223807443627147361 653 12 1 .leaf) 9223807443641827432 654 34 3 .leaf) 9223807443641827443 655 34 5 (.node (.node .leaf 9223807443662798956 656 34 4 .leaf) 9223807443677478962 657 11 4 .leaf)) 9223807443677478963 658 2 5 (.node (.node (.node .leaf 9223807443677479090 659 11 4 .leaf) 9223807443677479091 660 2 5 .leaf) 9223807443687964722 661 11 2 (.node .leaf 9223807443687964723 662 2 1 .leaf))) 9223807443687964850 663 11 2 (.node (.node (.node (.node .leaf 9223807443687964851 664 2 2 .leaf) 9223807443708936308 665 2 12 .leaf) 9223811841656881274 666 42 2 (.node .leaf 9223811841673658465 667 12 1 .leaf)) 9223811841688338536 668 34 3 (.node (.node (.node .leaf 9223811841688338547 669 34 5 .leaf) 9223811841709310017 670 37 2 .leaf) 9223811841709310020 671 11 5 (.node .leaf 9223811841709310022 672 1 2 .leaf)))) 9223811841709310024 673 41 1 (.node (.node (.node (.node (.node .leaf 9223811841709310033 674 40 2 .leaf) 9223811841709310038 675 36 2 .leaf) 9223811841709310039 676 35 2 (.node .leaf 9223811841709310055 677 2 12 .leaf)) 9223811841709310060 678 2 5 (.node (.node (.node .leaf 9223811841709310061 679 10 3 .leaf) 9223811841709310067 680 0 4 .leaf) 9223811841709310073 681 0 1 (.node .leaf 9223811841709310889 682 38 2 .leaf))) 9223811841709318439 683 39 1 (.node (.node (.node (.node .leaf 9223811841734475826 684 11 2 .leaf) 9223811841734475827 685 2 1 .leaf) 9223811841734475954 686 11 2 (.node .leaf 9223811841734475955 687 2 2 .leaf)) 9223811841755447412 688 2 17 (.node (.node (.node .leaf 9223811841759641710 689 22 2 .leaf) 9223811842002911329 690 0 2 .leaf) 9223820637749903482 691 42 2 (.node .leaf 9223820637766680673 692 12 1 .leaf))))
def ranks32 : Ranks := .node (.node (.node (.node (.node (.node .leaf 9223820637781360755 694 34 5 .leaf) 9223820637827498034 695 11 2 .leaf) 9223820637827498035 696 2 1 (.node (.node .leaf 9223820637827498162 697 11 2 .leaf) 9223820637827498163 698 2 2 .leaf)) 9223820637842178098 699 11 2 (.node (.node (.node .leaf 9223820637842178099 700 2 3 .leaf) 9223820637842178226 701 11 2 .leaf) 9223820637842178227 702 2 3 (.node .leaf 9223820637844275314 703 10 3 .leaf))) 9223825035848843372 704 2 5 (.node (.node (.node (.node .leaf 9223829433842925690 705 42 2 .leaf) 9223829433859702881 706 12 1 .leaf) 9223829433874382952 707 34 3 (.node .leaf 9223829433874382963 708 34 5 .leaf)) 9223829433920520242 709 11 2 (.node (.node (.node .leaf 9223829433920520243 710 2 1 .leaf) 9223829433920520370 711 11 2 .leaf) 9223829433920520371 712 2 2 (.node .leaf 9223833831969128498 713 11 3 .leaf)))) 9223833831969128499 714 2 4 (.node (.node (.node (.node (.node .leaf 9223833831969128626 715 11 3 .leaf) 9223833831969128627 716 2 4 .leaf) 9223842627982459002 717 42 2 (.node .leaf 9223842627999236193 718 12 1 .leaf)) 9223842628013916264 719 34 1 (.node (.node (.node .leaf 9223842628013916275 720 34 5 .leaf) 9223842628047470694 721 21 1 .leaf) 9223842628047470701 722 21 3 (.node .leaf 9223842628060053554 723 11 2 .leaf))) 9223842628060053555 724 2 1 (.node (.node (.node (.node .leaf 9223842628060053682 725 11 2 .leaf) 9223842628060053683 726 2 2 .leaf) 9223842628066345057 727 12 2 (.node .leaf 9223842628066345064 728 30 1 .leaf)) 9223842628081025128 729 34 2 (.node (.node (.node .leaf 9223847026083496051 730 2 10 .leaf) 9223847026089787489 731 10 5 .leaf) 9223847026112856163 732 12 5 (.node .leaf 9223847026131730546 733 10 3 .leaf))))
def ranks33 : Ranks := .node ranks31 9223820637781360744 693 34 3 ranks32
def ranks34 : Ranks := .node (.node (.node (.node (.node (.node .leaf 9223851424075481210 735 42 2 .leaf) 9223851424092258401 736 12 1 .leaf) 9223851424106938472 737 34 3 (.node (.node .leaf 9223851424106938483 738 34 5 .leaf) 9223851424136298611 739 0 3 .leaf)) 9223851424144687154 740 11 5 (.node (.node (.node .leaf 9223851424144687155 741 2 7 .leaf) 9223851424144687214 742 0 2 .leaf) 9223851424144687282 743 11 5 (.node .leaf 9223851424144687283 744 2 7 .leaf))) 9223851424153075762 745 11 2 (.node (.node (.node (.node .leaf 9223851424153075763 746 2 1 .leaf) 9223851424153075890 747 11 2 .leaf) 9223851424153075891 748 2 2 (.node .leaf 9223851424159367272 749 30 2 .leaf)) 9223855822059077741 750 34 4 (.node (.node (.node .leaf 9223855822121992314 751 42 2 .leaf) 9223855822138769505 752 12 1 .leaf) 9223855822153449576 753 34 3 (.node .leaf 9223855822153449587 754 34 5 .leaf)))) 9223855822199586866 755 11 2 (.node (.node (.node (.node (.node .leaf 9223855822199586867 756 2 1 .leaf) 9223855822199586921 757 10 3 .leaf) 9223855822199586994 758 11 2 (.node .leaf 9223855822199586995 759 2 2 .leaf)) 9223860220235612269 760 38 1 (.node (.node (.node .leaf 9223860220273361011 761 2 7 .leaf) 9223864618215014522 762 42 2 .leaf) 9223864618231791713 763 12 1 (.node .leaf 9223864618246471784 764 34 3 .leaf))) 9223864618246471795 765 34 5 (.node (.node (.node (.node .leaf 9223864618292609074 766 11 2 .leaf) 9223864618292609075 767 2 1 .leaf) 9223864618292609202 768 11 2 (.node .leaf 9223864618292609203 769 2 2 .leaf)) 9223864618305192041 770 12 4 (.node (.node (.node .leaf 9223864618313580660 771 2 17 .leaf) 9223869016261525626 772 42 2 .leaf) 9223869016278302817 773 12 1 (.node .leaf 9223869016292982888 774 34 3 .leaf))))
def ranks35 : Ranks := .node (.node (.node (.node (.node (.node .leaf 9223869016339120178 776 11 2 .leaf) 9223869016339120179 777 2 1 .leaf) 9223869016339120306 778 11 2 (.node .leaf 9223869016339120307 779 2 2 .leaf)) 9223869016349606004 780 2 11 (.node (.node (.node .leaf 9223873414308036730 781 42 2 .leaf) 9223873414324813921 782 12 1 .leaf) 9223873414339493992 783 34 3 (.node .leaf 9223873414339494003 784 34 5 .leaf))) 9223873414366756914 785 11 4 (.node (.node (.node (.node .leaf 9223873414366756915 786 5 1 .leaf) 9223873414366757042 787 11 4 .leaf) 9223873414366757043 788 5 1 (.node .leaf 9223873414368854114 789 2 4 .leaf)) 9223873414385631282 790 11 2 (.node (.node (.node .leaf 9223873414385631283 791 2 1 .leaf) 9223873414385631410 792 11 2 .leaf) 9223873414385631411 793 2 2 (.node .leaf 9223873414389825636 794 10 1 .leaf)))) 9223873414391922797 795 43 1 (.node (.node (.node (.node (.node .leaf 9223877812291633267 796 52 0 .leaf) 9223877812297924657 797 42 1 .leaf) 9223877812411170915 798 2 4 (.node .leaf 9223877812411170918 799 2 3 .leaf)) 9223877812411170925 800 2 2 (.node (.node (.node .leaf 9223877812415365219 801 0 3 .leaf) 9223877812419559527 802 15 2 .leaf) 9223877812419559535 803 13 4 (.node .leaf 9223877812419559543 804 13 4 .leaf))) 9223877812432142387 805 2 2 (.node (.node (.node (.node .leaf 9223877812432142515 806 2 2 .leaf) 9223877812440531053 807 11 1 .leaf) 9223877812446822498 808 2 3 (.node .leaf 9223882210461876274 809 11 4 .leaf)) 9223882210461876275 810 2 5 (.node (.node (.node .leaf 9223882210461876402 811 11 4 .leaf) 9223882210461876403 812 2 5 .leaf) 9223882210468167730 813 11 4 (.node .leaf 9223882210468167731 814 2 5 .leaf))))
def ranks36 : Ranks := .node ranks34 9223869016292982899 775 34 5 ranks35
def ranks37 : Ranks := .node ranks33 9223851424012566637 734 11 1 ranks36
def ranks38 : Ranks := .node (.node (.node (.node (.node (.node .leaf 9223882210468167859 816 2 5 .leaf) 9223882210482847854 817 2 13 .leaf) 9223886608447570042 818 42 2 (.node (.node .leaf 9223886608464347233 819 12 1 .leaf) 9223886608479027304 820 34 3 .leaf)) 9223886608479027315 821 34 5 (.node (.node (.node .leaf 9223886608525164594 822 11 2 .leaf) 9223886608525164595 823 2 1 .leaf) 9223886608525164722 824 11 2 (.node .leaf 9223886608525164723 825 2 2 .leaf))) 9223895404477677672 826 34 5 (.node (.node (.node (.node .leaf 9223895404477677683 827 34 5 .leaf) 9223904200633614458 828 42 2 .leaf) 9223904200650391649 829 12 1 (.node .leaf 9223904200665071720 830 34 3 .leaf)) 9223904200665071731 831 34 5 (.node (.node (.node .leaf 9223904200692334642 832 11 3 .leaf) 9223904200692334643 833 2 4 .leaf) 9223904200692334770 834 11 3 (.node .leaf 9223904200692334771 835 2 4 .leaf)))) 9223904200711209010 836 11 2 (.node (.node (.node (.node (.node .leaf 9223904200711209011 837 2 1 .leaf) 9223904200711209138 838 11 2 .leaf) 9223904200711209139 839 2 2 (.node .leaf 9223908598680125562 840 42 2 .leaf)) 9223908598696902753 841 12 1 (.node (.node (.node .leaf 9223908598711582824 842 34 3 .leaf) 9223908598711582835 843 34 5 .leaf) 9223908598757720114 844 11 2 (.node .leaf 9223908598757720115 845 2 1 .leaf))) 9223908598757720242 846 11 2 (.node (.node (.node (.node .leaf 9223908598757720243 847 2 2 .leaf) 9224168083424280698 848 42 2 .leaf) 9224168083441057889 849 12 1 (.node .leaf 9224168083455737960 850 34 3 .leaf)) 9224168083455737971 851 34 5 (.node (.node (.node .leaf 9224168083501875250 852 11 2 .leaf) 9224168083501875251 853 2 1 .leaf) 9224168083501875378 854 11 2 (.node .leaf 9224168083501875379 855 2 2 .leaf))))
def ranks39 : Ranks := .node (.node (.node (.node (.node (.node .leaf 19343237389163266614231150 857 10 4 .leaf) 19343246612535303349469232 858 49 2 .leaf) 19343412633311131643936837 859 11 4 (.node (.node .leaf 19343412633385898424139841 860 12 4 .leaf) 19343412633935654242222163 861 0 4 .leaf)) 19343421856674372405690433 862 12 4 (.node (.node (.node .leaf 19343421856674372405690439 863 12 5 .leaf) 19343421856674372405690451 864 12 5 .leaf) 19343421856678770439618628 865 28 1 (.node .leaf 19343421856753537211433030 866 2 5 .leaf))) 19343421856753537247084610 867 2 5 (.node (.node (.node (.node .leaf 19343421856779925526151237 868 31 1 .leaf) 19343421856819507974111340 869 2 6 .leaf) 19343421856837100197904435 870 2 4 (.node .leaf 19343421856837100197904563 871 2 4 .leaf)) 19343421856889876724580450 872 2 5 (.node (.node (.node .leaf 19343421856894274766897254 873 2 4 .leaf) 19343421856894274802548834 874 2 4 .leaf) 19343421856920663081615461 875 31 1 (.node .leaf 19343440303418446104756274 876 11 3 .leaf)))) 19343440303418446104756402 877 11 3 (.node (.node (.node (.node (.node .leaf 19343440303418446119436357 878 50 1 .leaf) 19343440303418446129922131 879 0 2 .leaf) 19343440303436038278217795 880 1 3 (.node .leaf 19343440303436038278217798 881 1 2 .leaf)) 19343440303436038278217803 882 1 4 (.node (.node (.node .leaf 19343440303436038278217810 883 1 3 .leaf) 19343440303493212870279245 884 2 9 .leaf) 19343440303523999223119941 885 22 2 (.node .leaf 19343440303559183674900581 886 50 1 .leaf))) 19343440303664736778584165 887 22 1 (.node (.node (.node (.node .leaf 19343440304034172591145043 888 0 3 .leaf) 19343449526869647863840819 889 2 3 .leaf) 19343449526869647863840947 890 2 5 (.node .leaf 19343449526935618536341618 891 12 4 .leaf)) 19343449526935618553118836 892 31 2 (.node (.node (.node .leaf 19343449527010385352196147 893 2 3 .leaf) 19343449527010385352196275 894 2 3 .leaf) 19343458750180111983575124 895 10 3 (.node .leaf 19343458750224092469657684 896 10 2 .leaf))))
def ranks40 : Ranks := .node ranks38 19343237389163266547122254 856 10 5 ranks39
def ranks41 : Ranks := .node (.node (.node (.node (.node (.node .leaf 19343458750250480755015858 898 11 6 .leaf) 19343467973455391810912323 899 13 3 .leaf) 19343467973534556666986579 900 2 6 (.node (.node .leaf 19343467973569741039075404 901 2 7 .leaf) 19343467973609323434606669 902 2 11 .leaf)) 19343467973613721506283571 903 2 4 (.node (.node (.node .leaf 19343467973613721506283699 904 2 4 .leaf) 19343467973613721573392435 905 2 3 .leaf) 19343467973613721573392563 906 2 5 (.node .leaf 19343467973679692245893234 907 12 4 .leaf))) 19343467973679692262670452 908 31 2 (.node (.node (.node (.node .leaf 19343467973754459061747763 909 2 3 .leaf) 19343467973754459061747891 910 2 3 .leaf) 19343477196968166191792210 911 0 1 (.node .leaf 19343486420335804962308168 912 10 3 .leaf)) 19343504867101868925386803 913 2 4 (.node (.node (.node .leaf 19343504867101868925386931 914 2 4 .leaf) 19343504867101868992495667 915 2 3 .leaf) 19343504867101868992495795 916 2 5 (.node .leaf 19343504867119461038030920 917 34 2 .leaf)))) 19343504867167839664996466 918 12 4 (.node (.node (.node (.node (.node .leaf 19343504867167839681773684 919 31 2 .leaf) 19343504867242606480850995 920 2 3 .leaf) 19343504867242606480851123 921 2 3 (.node .leaf 19343514090412333103841330 922 11 7 .leaf)) 19343514090412333103841458 923 11 7 (.node (.node (.node .leaf 19343514090460711619657793 924 12 5 .leaf) 19343514090460711619657805 925 12 6 .leaf) 19343523313705205083668548 926 29 2 (.node .leaf 19343523313705205083668557 927 11 2 .leaf))) 19343523313771175821181004 928 2 7 (.node (.node (.node (.node .leaf 19343523313801962167730245 929 10 4 .leaf) 19343523313801962171924563 930 0 3 .leaf) 19343523313819554334900294 931 2 5 (.node .leaf 19343523313819554345386055 932 12 6 .leaf)) 19343523313819554366357570 933 2 6 (.node (.node (.node .leaf 19343523313819554402009190 934 2 4 .leaf) 19343523313819554433466466 935 2 5 .leaf) 19343523313845942613966918 936 2 5 (.node .leaf 19343523313845942634938419 937 2 4 .leaf))))
def ranks42 : Ranks := .node (.node (.node (.node (.node (.node .leaf 19343523313845942649618498 939 2 5 .leaf) 19343523313845942702047283 940 2 3 .leaf) 19343523313845942702047411 941 2 5 (.node .leaf 19343523313911913374548082 942 12 4 .leaf)) 19343523313911913376645228 943 2 6 (.node (.node (.node .leaf 19343523313911913391325300 944 31 2 .leaf) 19343523313929505600438323 945 2 4 .leaf) 19343523313929505600438451 946 2 4 (.node .leaf 19343523313982282127114338 947 2 5 .leaf))) 19343523313986680169431142 948 2 4 (.node (.node (.node (.node .leaf 19343523313986680190402611 949 2 3 .leaf) 19343523313986680190402739 950 2 3 .leaf) 19343523313986680205082722 951 2 4 (.node .leaf 19343532537200387305766981 952 49 2 .leaf)) 19343532537341124861231205 953 49 1 (.node (.node (.node .leaf 19343550983882888288665683 954 33 2 .leaf) 19343550983918072736251988 955 2 7 .leaf) 19343550983962053190877249 956 12 5 (.node .leaf 19343550983962053190877255 957 12 6 .leaf)))) 19343550983962053266374707 958 2 3 (.node (.node (.node (.node (.node .leaf 19343550983962053266374835 959 2 5 .leaf) 19343550984023625777021043 960 33 1 .leaf) 19343550984028023938875506 961 12 4 (.node .leaf 19343550984028023955652724 962 31 2 .leaf)) 19343550984102790754730035 963 2 3 (.node (.node (.node .leaf 19343550984102790754730163 964 2 3 .leaf) 19343560207334090121150515 965 2 3 .leaf) 19343560207334090121150643 966 2 5 (.node .leaf 19343560207400060793651314 967 12 4 .leaf))) 19343560207474827609505843 968 2 3 (.node (.node (.node (.node .leaf 19343560207474827609505971 969 2 3 .leaf) 19343569430644554257662003 970 2 4 .leaf) 19343569430644554257662131 971 2 4 (.node .leaf 19343569430644554324770867 972 2 3 .leaf)) 19343569430644554324770995 973 2 5 (.node (.node (.node .leaf 19343569430706126975926323 974 2 3 .leaf) 19343569430706126975926451 975 2 5 .leaf) 19343569430772097648427122 976 12 4 (.node .leaf 19343569430785291813126195 977 2 3 .leaf))))
def ranks43 : Ranks := .node ranks41 19343523313845942634938547 938 2 4 ranks42
def ranks44 : Ranks := .node ranks40 19343458750250480755015730 897 11 6 ranks43
def ranks45 : Ranks := .node ranks37 9223882210468167858 815 11 4 ranks44
def ranks46 : Ranks := .node (.node (.node (.node (.node (.node .leaf 19343569430846864464281779 979 2 3 .leaf) 19343578654007795004735556 980 26 2 .leaf) 19343578654051775430000708 981 27 2 (.node (.node .leaf 19343578654069367576199245 982 11 2 .leaf) 19343578654069367649599560 983 11 5 .leaf)) 19343578654069367649599565 984 11 5 (.node (.node (.node .leaf 19343578654069367655891028 985 11 3 .leaf) 19343578654069367660085325 986 11 5 .leaf) 19343578654069367662182478 987 11 4 (.node .leaf 19343578654069367666376781 988 11 3 .leaf))) 19343578654069367681056836 989 11 5 (.node (.node (.node (.node .leaf 19343578654069367685251141 990 11 5 .leaf) 19343578654069367685251144 991 11 5 .leaf) 19343578654069367695736900 992 11 4 (.node .leaf 19343578654082561787035716 993 25 1 .leaf)) 19343578654082561810104371 994 2 3 (.node (.node (.node .leaf 19343578654082561810104499 995 3 1 .leaf) 19343578654082561877213235 996 2 4 .leaf) 19343578654082561877213363 997 3 2 (.node .leaf 19343587877401822110941269 998 10 4 .leaf)))) 19343587877432608434421843 999 2 14 (.node (.node (.node (.node (.node .leaf 19343587877432608442810450 1000 12 4 .leaf) 19343587877450200597397574 1001 2 5 .leaf) 19343587877450200633049154 1002 2 5 (.node .leaf 19343587877450200685477939 1003 2 3 .leaf)) 19343587877450200685478067 1004 2 5 (.node (.node (.node .leaf 19343587877516171357978738 1005 12 4 .leaf) 19343587877516171360075884 1006 2 6 .leaf) 19343587877516171374755956 1007 31 2 (.node .leaf 19343587877533763583868979 1008 2 4 .leaf))) 19343587877533763583869107 1009 2 4 (.node (.node (.node (.node .leaf 19343587877573345998274674 1010 12 3 .leaf) 19343587877586540110544994 1011 2 5 .leaf) 19343587877590938152861798 1012 2 4 (.node .leaf 19343587877590938173833267 1013 2 3 .leaf)) 19343587877590938173833395 1014 2 3 (.node (.node (.node .leaf 19343587877590938188513378 1015 2 4 .leaf) 19343597100822237464756304 1016 23 2 .leaf) 19343606324176682139779156 1017 36 1 (.node .leaf 19343606324317419695243380 1018 36 0 .leaf))))
def ranks47 : Ranks := .node (.node (.node (.node (.node (.node .leaf 19343615547504738514763851 1020 0 3 .leaf) 19343615547517932608159816 1021 35 2 .leaf) 19343615547517932608159831 1022 0 2 (.node (.node .leaf 19343615547627883915640948 1023 35 0 .leaf) 19343615547658670096515159 1024 0 1 .leaf)) 19343615547658670096515176 1025 35 1 (.node (.node (.node .leaf 19343633994231220065534020 1026 10 1 .leaf) 19343633994248812215926866 1027 0 3 .leaf) 19343633994310384959356979 1028 2 3 (.node .leaf 19343633994310384959357107 1029 2 5 .leaf))) 19343633994336773196480601 1030 0 4 (.node (.node (.node (.node .leaf 19343633994376355631857778 1031 12 4 .leaf) 19343633994376355648634996 1032 31 2 .leaf) 19343633994451122447712307 1033 2 3 (.node .leaf 19343633994451122447712435 1034 2 3 .leaf)) 19343643217682421814132787 1035 2 3 (.node (.node (.node .leaf 19343643217682421814132915 1036 2 5 .leaf) 19343643217748392486633586 1037 12 4 .leaf) 19343643217748392503410804 1038 31 2 (.node .leaf 19343643217823159302488115 1039 2 3 .leaf)))) 19343643217823159302488243 1040 2 3 (.node (.node (.node (.node (.node .leaf 19343707781286679797563443 1041 2 3 .leaf) 19343707781286679797563571 1042 2 5 .leaf) 19343707781352650470064242 1043 12 4 (.node .leaf 19343707781357048552226917 1044 11 3 .leaf)) 19343707781427417285918771 1045 2 3 (.node (.node (.node .leaf 19343707781427417285918899 1046 2 3 .leaf) 19343707781431815332429921 1047 12 3 .leaf) 19343707781981571150512243 1048 0 4 (.node .leaf 19343717004720289313980513 1049 12 3 .leaf))) 19343717004720289313980519 1050 12 4 (.node (.node (.node (.node .leaf 19343717004720289313980531 1051 12 4 .leaf) 19343717004724687347908708 1052 28 0 .leaf) 19343717004825842434441317 1053 31 0 (.node .leaf 19343726228030753507115059 1054 2 3 .leaf)) 19343726228030753507115187 1055 2 5 (.node (.node (.node .leaf 19343726228096724179615858 1056 12 4 .leaf) 19343726228171490995470387 1057 2 3 .leaf) 19343726228171490995470515 1058 2 3 (.node .leaf 19343735451402790361890867 1059 2 3 .leaf))))
def ranks48 : Ranks := .node ranks46 19343615547487146360176724 1019 35 1 ranks47
def ranks49 : Ranks := .node (.node (.node (.node (.node (.node .leaf 19343735451464362935451770 1061 42 2 .leaf) 19343735451464362952228961 1062 12 1 .leaf) 19343735451464362966909032 1063 34 3 (.node (.node .leaf 19343735451464362966909043 1064 34 5 .leaf) 19343735451464363013046322 1065 11 2 .leaf)) 19343735451464363013046323 1066 2 1 (.node (.node (.node .leaf 19343735451464363013046450 1067 11 2 .leaf) 19343735451464363013046451 1068 2 2 .leaf) 19343735451464363027726437 1069 50 0 (.node .leaf 19343735451464363038212211 1070 0 2 .leaf))) 19343735451468761034391666 1071 12 4 (.node (.node (.node (.node .leaf 19343735451481955186507843 1072 1 2 .leaf) 19343735451481955186507846 1073 1 1 .leaf) 19343735451481955186507851 1074 1 3 (.node .leaf 19343735451481955186507858 1075 1 2 .leaf)) 19343735451481955186507875 1076 1 3 (.node (.node (.node .leaf 19343735451481955186507878 1077 1 2 .leaf) 19343735451481955186507883 1078 1 4 .leaf) 19343735451481955186507890 1079 1 3 (.node .leaf 19343735451539129778569325 1080 2 8 .leaf)))) 19343735451543527850246195 1081 2 3 (.node (.node (.node (.node (.node .leaf 19343735451543527850246323 1082 2 3 .leaf) 19343735451569916131410021 1083 22 2 .leaf) 19343735452080089499435123 1084 0 2 (.node .leaf 19343753898146864071442483 1085 2 3 .leaf)) 19343753898146864071442611 1086 2 5 (.node (.node (.node .leaf 19343753898212834743943282 1087 12 4 .leaf) 19343753898226028891865204 1088 10 2 .leaf) 19343753898270009377947764 1089 10 1 (.node .leaf 19343753898287601559797811 1090 2 3 .leaf))) 19343753898287601559797939 1091 2 3 (.node (.node (.node (.node .leaf 19343753898296397663305778 1092 11 5 .leaf) 19343753898296397663305779 1093 2 6 .leaf) 19343753898296397663305906 1094 11 5 (.node .leaf 19343753898296397663305907 1095 2 6 .leaf)) 19343763121360571230847075 1096 13 2 (.node (.node (.node .leaf 19343763121580473575276659 1097 2 6 .leaf) 19343763121615657899130955 1098 2 7 .leaf) 19343763121615657899130963 1099 2 7 (.node .leaf 19343763121615657947365484 1100 2 6 .leaf))))
def ranks50 : Ranks := .node (.node (.node (.node (.node (.node .leaf 19343772344890937780994099 1102 2 3 .leaf) 19343772344890937780994227 1103 2 5 .leaf) 19343772344956908453494898 1104 12 4 (.node .leaf 19343772345014083100082290 1105 0 0 .leaf)) 19343772345031675269349427 1106 2 3 (.node (.node (.node .leaf 19343772345031675269349555 1107 2 3 .leaf) 19343781568381721870598248 1108 10 2 .leaf) 19343800015007048345321523 1109 2 3 (.node .leaf 19343800015007048345321651 1110 2 5 .leaf))) 19343800015024640390856808 1111 34 1 (.node (.node (.node (.node .leaf 19343800015073019017822322 1112 12 4 .leaf) 19343800015073019034599540 1113 31 2 .leaf) 19343800015147785833676851 1114 2 3 (.node .leaf 19343800015147785833676979 1115 2 3 .leaf)) 19343800015165377879212136 1116 34 2 (.node (.node (.node .leaf 19343809238458250012131378 1117 11 6 .leaf) 19343809238458250012131379 1118 2 8 .leaf) 19343809238458250012131506 1119 11 6 (.node .leaf 19343809238458250012131507 1120 2 8 .leaf)))) 19343809238506628527947873 1121 12 4 (.node (.node (.node (.node (.node .leaf 19343809238506628527947885 1122 12 5 .leaf) 19343818461570802147917874 1123 2 1 .leaf) 19343818461570802147918002 1124 2 1 (.node .leaf 19343818461592792393056306 1125 47 0 .leaf)) 19343818461605986379497581 1126 2 1 (.node (.node (.node .leaf 19343818461610384436494436 1127 29 1 .leaf) 19343818461610384436494445 1128 11 1 .leaf) 19343818461751122054873139 1129 2 3 (.node .leaf 19343818461751122054873267 1130 2 5 .leaf))) 19343818461817092727373938 1131 12 4 (.node (.node (.node (.node .leaf 19343818461847879076020325 1132 10 3 .leaf) 19343818461847879080214643 1133 0 3 .leaf) 19343818461865471186567271 1134 12 5 (.node .leaf 19343818461891859543228467 1135 2 3 .leaf)) 19343818461891859543228595 1136 2 3 (.node (.node (.node .leaf 19343818462168936332918893 1137 2 1 .leaf) 19343827685123158909648947 1138 2 3 .leaf) 19343827685123158909649075 1139 2 5 (.node .leaf 19343827685189129582149746 1140 12 4 .leaf))))
def ranks51 : Ranks := .node ranks49 19343763121655240342896749 1101 2 10 ranks50
def ranks52 : Ranks := .node ranks48 19343735451402790361890995 1060 2 5 ranks51
def ranks53 : Ranks := .node (.node (.node (.node (.node (.node .leaf 19343827685263896398004275 1142 2 3 .leaf) 19343827685263896398004403 1143 2 3 .leaf) 19343836908666719528026187 1144 2 6 (.node (.node .leaf 19343836908666719528026195 1145 2 6 .leaf) 19343846131867232619200563 1146 2 3 .leaf)) 19343846131867232619200691 1147 2 5 (.node (.node (.node .leaf 19343846131933203291701362 1148 12 4 .leaf) 19343846131946397466886243 1149 49 2 .leaf) 19343846131963989644542068 1150 2 6 (.node .leaf 19343846132007970099167329 1151 12 4 .leaf))) 19343846132007970099167335 1152 12 5 (.node (.node (.node (.node .leaf 19343846132007970107555891 1153 2 3 .leaf) 19343846132007970107556019 1154 2 3 .leaf) 19343846132012368103735371 1155 2 7 (.node .leaf 19343846132012368103735379 1156 2 7 .leaf)) 19343855355239269473976371 1157 2 3 (.node (.node (.node .leaf 19343855355239269473976499 1158 2 5 .leaf) 19343855355305240146477170 1159 12 4 .leaf) 19343855355380006962331699 1160 2 3 (.node .leaf 19343855355380006962331827 1161 2 3 .leaf)))) 19343855355384404958511179 1162 2 6 (.node (.node (.node (.node (.node .leaf 19343855355384404958511187 1163 2 6 .leaf) 19343864578611306328752179 1164 2 3 .leaf) 19343864578611306328752307 1165 2 5 (.node .leaf 19343864578677277001252978 1166 12 4 .leaf)) 19343864578690471144980579 1167 4 1 (.node (.node (.node .leaf 19343864578690471165952051 1168 2 3 .leaf) 19343864578690471165952179 1169 2 3 .leaf) 19343864578752043817107507 1170 2 3 (.node .leaf 19343864578752043817107635 1171 2 3 .leaf))) 19343873802053711913025636 1172 26 1 (.node (.node (.node (.node .leaf 19343873802053711927705651 1173 2 4 .leaf) 19343873802053711927705779 1174 2 4 .leaf) 19343873802097692271181924 1175 27 1 (.node .leaf 19343873802115284417380461 1176 11 1 .leaf)) 19343873802115284557889640 1177 11 4 (.node (.node (.node .leaf 19343873802115284557889645 1178 11 4 .leaf) 19343873802115284564181108 1179 11 2 .leaf) 19343873802115284568375405 1180 11 4 (.node .leaf 19343873802115284570472558 1181 11 3 .leaf))))
def ranks54 : Ranks := .node (.node (.node (.node (.node (.node .leaf 19343873802115284589346916 1183 11 4 .leaf) 19343873802115284593541221 1184 11 4 .leaf) 19343873802115284593541224 1185 11 4 (.node (.node .leaf 19343873802115284604026980 1186 11 3 .leaf) 19343873802128478695325796 1187 25 0 .leaf)) 19343873802128478695325804 1188 2 3 (.node (.node (.node .leaf 19343873802128478695325807 1189 2 3 .leaf) 19343873802128478695325815 1190 2 3 .leaf) 19343873802128478718394419 1191 2 2 (.node .leaf 19343873802128478718394547 1192 3 0 .leaf))) 19343883025447739019231349 1193 10 3 (.node (.node (.node (.node .leaf 19343883025478525342711923 1194 2 14 .leaf) 19343892248727416893079603 1195 2 3 .leaf) 19343892248727416893079731 1196 2 5 (.node .leaf 19343892248793387565580402 1197 12 4 .leaf)) 19343892248868154373046384 1198 23 1 (.node (.node (.node .leaf 19343892248868154381434931 1199 2 3 .leaf) 19343892248868154381435059 1200 2 3 .leaf) 19343910695550655423053931 1201 0 2 (.node .leaf 19343929142215564312182835 1202 2 3 .leaf)))) 19343929142215564312182963 1203 2 5 (.node (.node (.node (.node (.node .leaf 19343929142277136973824100 1204 10 0 .leaf) 19343929142281534984683634 1205 12 4 .leaf) 19343929142294729124216946 1206 0 2 (.node .leaf 19343929142356301800538163 1207 2 3 .leaf)) 19343929142356301800538291 1208 2 3 (.node (.node (.node .leaf 19343929142382690104770681 1209 0 3 .leaf) 19343938365587601166958643 1210 2 3 .leaf) 19343938365587601166958771 1211 2 5 (.node .leaf 19343938365653571839459442 1212 12 4 .leaf))) 19343938365728338655313971 1213 2 3 (.node (.node (.node (.node .leaf 19343938365728338655314099 1214 2 3 .leaf) 19344482544537775598731315 1215 2 3 .leaf) 19344482544537775598731443 1216 2 5 (.node .leaf 19344482544603746271232114 1217 12 4 .leaf)) 19344482544678513078698096 1218 23 1 (.node (.node (.node .leaf 19344482544678513087086643 1219 2 3 .leaf) 19344482544678513087086771 1220 2 3 .leaf) 19351335509961158621659216 1221 23 2 (.node .leaf 40565747662757080212300428738638 1222 10 5 .leaf))))
def ranks55 : Ranks := .node ranks53 19343873802115284574666861 1182 11 2 ranks54
def ranks56 : Ranks := .node (.node (.node (.node (.node (.node .leaf 40565767005579417493170852724818 1224 24 1 .leaf) 40565767005579417541549381124174 1225 43 2 .leaf) 40565767005579417554743541629001 1226 23 1 (.node (.node .leaf 40565767005579417633908408189042 1227 24 0 .leaf) 40565767005579417682286936588398 1228 43 1 .leaf)) 40565767005579417695481097093225 1229 23 0 (.node (.node (.node .leaf 40566076490543122035229922951245 1230 36 2 .leaf) 40566076490543122175967478415469 1231 36 1 .leaf) 40566095833568373439338465198157 1232 15 2 (.node .leaf 40566095833568373439338540695617 1233 12 4 .leaf))) 40566095833568373439338540695623 1234 12 5 (.node (.node (.node (.node .leaf 40566095834029542190714892320876 1235 2 4 .leaf) 40566095834029542190714892320879 1236 2 4 .leaf) 40566095834029542190714892320887 1237 2 4 (.node .leaf 40566115176446050701741425426504 1238 11 5 .leaf)) 40566115176446050802896507764814 1239 10 2 (.node (.node (.node .leaf 40566115176492167561925699305549 1240 11 5 .leaf) 40566134519194601107472097738841 1241 11 4 .leaf) 40566134519194601116268194955347 1242 50 1 (.node .leaf 40566134519231494547240931819587 1243 1 3 .leaf)))) 40566134519231494547240931819590 1244 1 2 (.node (.node (.node (.node (.node .leaf 40566134519231494547240931819595 1245 1 4 .leaf) 40566134519231494547240931819602 1246 1 3 .leaf) 40566134519351398357331859210323 1247 2 9 (.node .leaf 40566134519489749153389006028921 1248 11 3 .leaf)) 40566134519489749162185103245427 1249 50 1 (.node (.node (.node .leaf 40566153862173735646998460104755 1250 2 5 .leaf) 40566153862173735646998460104883 1251 3 3 .leaf) 40566153862312086284725896872033 1252 12 4 (.node .leaf 40566153862312086284725896872039 1253 12 5 .leaf))) 40566153862312086390279017332837 1254 31 1 (.node (.node (.node (.node .leaf 40566153862459660254907748843571 1255 2 4 .leaf) 40566153862459660254907748843699 1256 2 4 .leaf) 40566153862468883692915301285939 1257 2 3 (.node .leaf 40566153862468883692915301286067 1258 3 1 .leaf)) 40566173204820828775605684142148 1259 1 3 (.node (.node (.node .leaf 40566173204922285648108790480986 1260 2 7 .leaf) 40566173204996072668384074924116 1261 11 3 .leaf) 40566173205115976821522592432228 1262 1 2 (.node .leaf 40566192547449475146945180729420 1263 9 1 .leaf))))
def ranks57 : Ranks := .node (.node (.node (.node (.node (.node .leaf 40566192547467921847038420975795 1265 13 3 .leaf) 40566192547707729559579061649491 1266 2 7 .leaf) 40566192547790739859532236718158 1267 2 16 (.node .leaf 40566192547790739859532245106771 1268 2 11 .leaf)) 40566192547799963315132050702387 1269 2 5 (.node (.node (.node .leaf 40566192547799963315132050702515 1270 3 3 .leaf) 40566192547938313952859487469665 1271 12 4 .leaf) 40566192547938313952859487469671 1272 12 5 (.node .leaf 40566192547938314058412607930469 1273 31 1 .leaf))) 40566192548085887923041339441203 1274 2 4 (.node (.node (.node (.node .leaf 40566192548085887923041339441331 1275 2 4 .leaf) 40566192548095111361048891883571 1276 2 3 .leaf) 40566192548095111361048891883699 1277 3 1 (.node .leaf 40566211890483949914294543450201 1278 41 2 .leaf)) 40566211890483949931886733688922 1279 42 1 (.node (.node (.node .leaf 40566211890557736732259686285389 1280 11 5 .leaf) 40566211890576183665449416786003 1281 0 1 .leaf) 40566211890779097960211451740281 1282 41 1 (.node .leaf 40566211890779097977803641979002 1283 42 0 .leaf)))) 40566231233380073938363338457166 1284 11 4 (.node (.node (.node (.node (.node .leaf 40566250576202411333582994800709 1285 34 3 .leaf) 40566250576497559379499903090789 1286 34 2 .leaf) 40566269918941738024229186568243 1287 15 1 (.node .leaf 40566269918941738024229186568371 1288 15 2 .leaf)) 40566269918969408140339750895667 1289 19 1 (.node (.node (.node .leaf 40566269918969408140339750895795 1290 19 2 .leaf) 40566269918969408140339818004531 1291 19 1 .leaf) 40566269918997078256450304737362 1292 30 2 (.node .leaf 40566269919052418651399164788787 1293 2 4 .leaf))) 40566269919052418651399164788915 1294 3 2 (.node (.node (.node (.node .leaf 40566269919052418651399231897651 1295 2 5 .leaf) 40566269919052418651399231897779 1296 3 3 .leaf) 40566269919190769289126668664929 1297 12 4 (.node .leaf 40566269919190769289126668664935 1298 12 5 .leaf)) 40566269919190769394679789125733 1299 31 1 (.node (.node (.node .leaf 40566269919236885929408606502963 1300 15 1 .leaf) 40566269919338343259308520636467 1301 2 4 .leaf) 40566269919338343259308520636595 1302 2 4 (.node .leaf 40566269919347566697316073078835 1303 2 3 .leaf))))
def ranks58 : Ranks := .node ranks56 40566192547467921847038420975667 1264 13 2 ranks57
def ranks59 : Ranks := .node ranks55 40565747662757080212300495847534 1223 10 4 ranks58
def ranks60 : Ranks := .node ranks52 19343827685233110055649377 1141 10 4 ranks59
def ranks61 : Ranks := .node ranks45 19343569430846864464281651 978 2 3 ranks60
def ranks62 : Ranks := .node ranks30 9223807443610370170 652 42 2 ranks61
def ranks63 : Ranks := .node (.node (.node (.node (.node (.node .leaf 40566289261773298685932585615425 1305 2 10 .leaf) 40566289261773298765097395552338 1306 2 5 .leaf) 40566289261773298765097422815301 1307 2 4 (.node (.node .leaf 40566308604549519106618725236819 1308 0 4 .leaf) 40566308604549519111016771747922 1309 10 2 .leaf)) 40566308604549519111016799010885 1310 10 3 (.node (.node (.node .leaf 40566308604549519111016799010895 1311 10 3 .leaf) 40566308604586412414446254161993 1312 11 6 .leaf) 40566308604586412436436476231762 1313 30 3 (.node .leaf 40566308604623306008146766463052 1314 2 7 .leaf))) 40566308604623306082913559248966 1315 2 5 (.node (.node (.node (.node .leaf 40566308604623306082913594900546 1316 2 5 .leaf) 40566308604623306148884321927276 1317 2 6 .leaf) 40566308604623306166476545720371 1318 2 4 (.node .leaf 40566308604623306166476545720499 1319 2 4 .leaf)) 40566308604623306219253072396386 1320 2 5 (.node (.node (.node .leaf 40566308604623306223651114713190 1321 2 4 .leaf) 40566308604623306223651150364770 1322 2 4 .leaf) 40566308604641752804997071896648 1323 0 3 (.node .leaf 40566308604678646319532755386419 1324 2 4 .leaf)))) 40566308604678646319532755386547 1325 3 2 (.node (.node (.node (.node (.node .leaf 40566308604678646319532822495283 1326 2 5 .leaf) 40566308604678646319532822495411 1327 3 3 .leaf) 40566308604816996957260259262561 1328 12 4 (.node .leaf 40566308604816996957260259262567 1329 12 5 .leaf)) 40566308604816997062813379723365 1330 31 1 (.node (.node (.node .leaf 40566308604964570927442111234099 1331 2 4 .leaf) 40566308604964570927442111234227 1332 2 4 .leaf) 40566308604973794365449640607852 1333 2 4 (.node .leaf 40566308604973794365449640607855 1334 2 4 .leaf))) 40566308604973794365449640607863 1335 2 4 (.node (.node (.node (.node .leaf 40566308604973794365449663676467 1336 2 3 .leaf) 40566308604973794365449663676595 1337 3 1 .leaf) 40566347290203416864474544472129 1338 36 2 (.node .leaf 40566347290203416864474552860749 1339 38 2 .leaf)) 40566347290323320705351755497541 1340 2 7 (.node (.node (.node .leaf 40566366633025754074976329138259 1341 2 7 .leaf) 40566366633081094285207223140421 1342 33 1 .leaf) 40566366633081094337983770787908 1343 2 9 (.node .leaf 40566366633117987821733208391731 1344 2 5 .leaf))))
def ranks64 : Ranks := .node (.node (.node (.node (.node (.node .leaf 40566366633256338459460645159009 1346 12 4 .leaf) 40566366633256338459460645159015 1347 12 5 .leaf) 40566366633256338565013765619813 1348 31 1 (.node (.node .leaf 40566366633376242331124131430501 1349 33 0 .leaf) 40566366633403912429642497130547 1350 2 4 .leaf)) 40566366633403912429642497130675 1351 2 4 (.node (.node (.node .leaf 40566366633413135867650049572915 1352 2 3 .leaf) 40566366633413135867650049573043 1353 3 1 .leaf) 40566385975931101655800003690547 1354 2 5 (.node .leaf 40566385975931101655800003690675 1355 3 3 .leaf))) 40566385975949548316310772908116 1356 2 6 (.node (.node (.node (.node .leaf 40566385976069452293527440457825 1357 12 4 .leaf) 40566385976069452293527440457831 1358 12 5 .leaf) 40566385976217026263709292429363 1359 2 4 (.node .leaf 40566385976217026263709292429491 1360 2 4 .leaf)) 40566385976226249701716844871731 1361 2 3 (.node (.node (.node .leaf 40566385976226249701716844871859 1362 3 1 .leaf) 40566405318578194793203337527375 1363 49 2 .leaf) 40566405318605864724595967262788 1364 11 5 (.node .leaf 40566405318744215489866798989363 1365 2 5 .leaf)))) 40566405318744215489866798989491 1366 3 3 (.node (.node (.node (.node (.node .leaf 40566405318882566127594235756641 1367 12 4 .leaf) 40566405318882566127594235756647 1368 12 5 .leaf) 40566405319030140097776087728179 1369 2 4 (.node .leaf 40566405319030140097776087728307 1370 2 4 .leaf)) 40566405319039363535783640170547 1371 2 3 (.node (.node (.node .leaf 40566405319039363535783640170675 1372 3 1 .leaf) 40566424661428202040650706714692 1373 51 1 .leaf) 40566424661538882351161378078792 1374 11 5 (.node .leaf 40566424661538882351161378078797 1375 11 5 .leaf))) 40566424661538882351161384370260 1376 11 3 (.node (.node (.node (.node .leaf 40566424661538882351161388564557 1377 11 5 .leaf) 40566424661538882351161390661710 1378 11 4 .leaf) 40566424661538882351161394856013 1379 11 3 (.node .leaf 40566424661538882351161399050313 1380 11 6 .leaf)) 40566424661538882351161409536068 1381 11 5 (.node (.node (.node .leaf 40566424661538882351161413730373 1382 11 5 .leaf) 40566424661538882351161413730376 1383 11 5 .leaf) 40566424661538882351161424216132 1384 11 4 (.node .leaf 40566424661538882509491048284237 1385 11 5 .leaf))))
def ranks65 : Ranks := .node ranks63 40566366633117987821733208391859 1345 3 3 ranks64
def ranks66 : Ranks := .node (.node (.node (.node (.node (.node .leaf 40566424661538882544675428761665 1387 11 7 .leaf) 40566424661566552665184001851460 1388 27 2 .leaf) 40566424661566552673980151496773 1389 2 10 (.node (.node .leaf 40566444004241315764766416830533 1390 11 5 .leaf) 40566444004241315923096091230280 1391 10 4 .leaf)) 40566444004268985880876981157960 1392 11 5 (.node (.node (.node .leaf 40566444004333549643464626405445 1393 2 12 .leaf) 40566444004370443158000389586995 1394 2 5 .leaf) 40566444004370443158000389587123 1395 3 3 (.node .leaf 40566444004508793795727826354273 1396 12 4 .leaf))) 40566444004508793795727826354279 1397 12 5 (.node (.node (.node (.node .leaf 40566444004508793901280946815077 1398 31 1 .leaf) 40566444004628697689381534695525 1399 2 11 .leaf) 40566444004656367765909678325811 1400 2 4 (.node .leaf 40566444004656367765909678325939 1401 2 4 .leaf)) 40566444004665591203917207699564 1402 2 4 (.node (.node (.node .leaf 40566444004665591203917207699567 1403 2 4 .leaf) 40566444004665591203917207699575 1404 2 4 .leaf) 40566444004665591203917230768179 1405 2 3 (.node .leaf 40566444004665591203917230768307 1406 3 1 .leaf)))) 40566463347109770015772283764814 1407 2 14 (.node (.node (.node (.node (.node .leaf 40566463347109770081743065317492 1408 2 12 .leaf) 40566463347109770099335205224556 1409 2 5 .leaf) 40566463347109770156509839229038 1410 2 13 (.node .leaf 40566463347183556992067121971278 1411 2 12 .leaf)) 40566463347183557058037903523956 1412 2 10 (.node (.node (.node .leaf 40566463347183557075630043431020 1413 2 3 .leaf) 40566463347183557132804677435502 1414 2 11 .leaf) 40566482689664629410816898105421 1415 37 2 (.node .leaf 40566482689664629551554453569645 1416 37 1 .leaf))) 40566502032680657385714039652435 1417 0 3 (.node (.node (.node (.node .leaf 40566540718297661563063549034564 1418 11 4 .leaf) 40566540718306885036255458885715 1419 0 3 .leaf) 40566540718436012328334366081075 1420 2 5 (.node .leaf 40566540718436012328334366081203 1421 3 3 .leaf)) 40566540718574362966061802848353 1422 12 4 (.node (.node (.node .leaf 40566540718574362966061802848359 1423 12 5 .leaf) 40566540718574363071614923309157 1424 31 1 .leaf) 40566540718721936936243654819891 1425 2 4 (.node .leaf 40566540718721936936243654820019 1426 2 4 .leaf))))
def ranks67 : Ranks := .node (.node (.node (.node (.node (.node .leaf 40566540718731160374251207262387 1428 3 1 .leaf) 40566560061249126162401161379891 1429 2 5 .leaf) 40566560061249126162401161380019 1430 3 3 (.node .leaf 40566560061387476800128598147169 1431 12 4 .leaf)) 40566560061387476800128598147175 1432 12 5 (.node (.node (.node .leaf 40566560061387476905681718607973 1433 31 1 .leaf) 40566560061535050770310450118707 1434 2 4 .leaf) 40566560061535050770310450118835 1435 2 4 (.node .leaf 40566560061544274208318002561075 1436 2 3 .leaf))) 40566560061544274208318002561203 1437 3 1 (.node (.node (.node (.node .leaf 40566695460940923000868728471603 1438 2 5 .leaf) 40566695460940923000868728471731 1439 3 3 .leaf) 40566695461079273638596165238881 1440 12 4 (.node .leaf 40566695461079273638596165238887 1441 12 5 .leaf)) 40566695461226847608778017210419 1442 2 4 (.node (.node (.node .leaf 40566695461226847608778017210547 1443 2 4 .leaf) 40566695461236071046785569652787 1444 2 3 .leaf) 40566695461236071046785569652915 1445 3 1 (.node .leaf 40566714803883164175392755941485 1446 15 1 .leaf)))) 40566714803883164175392898547809 1447 12 3 (.node (.node (.node (.node (.node .leaf 40566714803883164175392898547815 1448 12 4 .leaf) 40566734146567150669002319069235 1449 2 5 .leaf) 40566734146567150669002319069363 1450 3 3 (.node .leaf 40566734146705501306729755836513 1451 12 4 .leaf)) 40566734146705501306729755836519 1452 12 5 (.node (.node (.node .leaf 40566734146760841297058294923368 1453 11 4 .leaf) 40566734146760841538950865617006 1454 10 1 .leaf) 40566734146806958157242568802413 1455 11 4 (.node .leaf 40566734146853075276911607808051 1456 2 4 .leaf))) 40566734146853075276911607808179 1457 2 4 (.node (.node (.node (.node .leaf 40566734146862298714919160250419 1458 2 3 .leaf) 40566734146862298714919160250547 1459 3 1 .leaf) 40566753489380264503069114368051 1460 2 5 (.node .leaf 40566753489380264503069114368179 1461 3 3 .leaf)) 40566753489509391707187034718259 1462 2 3 (.node (.node (.node .leaf 40566753489509391707187034718387 1463 2 5 .leaf) 40566753489509391773157707219058 1464 12 4 .leaf) 40566753489509391843526455591033 1465 11 4 (.node .leaf 40566753489509391847924523073587 1466 2 3 .leaf))))
def ranks68 : Ranks := .node ranks66 40566540718731160374251207262259 1427 2 3 ranks67
def ranks69 : Ranks := .node ranks65 40566424661538882518287183249490 1386 11 6 ranks68
def ranks70 : Ranks := .node (.node (.node (.node (.node (.node .leaf 40566753489509391852322552807539 1468 50 1 .leaf) 40566753489518615140796551135329 1469 12 4 .leaf) 40566753489518615140796551135335 1470 12 5 (.node (.node .leaf 40566753489546285283295222562883 1471 1 2 .leaf) 40566753489546285283295222562886 1472 1 1 .leaf)) 40566753489546285283295222562891 1473 1 3 (.node (.node (.node .leaf 40566753489546285283295222562898 1474 1 2 .leaf) 40566753489546285283295222562915 1475 1 3 .leaf) 40566753489546285283295222562918 1476 1 2 (.node .leaf 40566753489546285283295222562923 1477 1 4 .leaf))) 40566753489546285283295222562930 1478 1 3 (.node (.node (.node (.node .leaf 40566753489666189093386217062515 1479 2 9 .leaf) 40566753489666189110978403106867 1480 2 4 .leaf) 40566753489666189110978403106995 1481 2 4 (.node .leaf 40566753489675412548985955549235 1482 2 3 .leaf)) 40566753489675412548985955549363 1483 3 1 (.node (.node (.node .leaf 40566792175006492171202704965683 1484 2 5 .leaf) 40566792175006492171202704965811 1485 3 3 .leaf) 40566792175144842808930141732961 1486 12 4 (.node .leaf 40566792175144842808930141732967 1487 12 5 .leaf)))) 40566792175237076243425659977850 1488 2 6 (.node (.node (.node (.node (.node .leaf 40566792175292416779111993704499 1489 2 4 .leaf) 40566792175292416779111993704627 1490 2 4 .leaf) 40566792175301640217119546146867 1491 2 3 (.node .leaf 40566792175301640217119546146995 1492 3 1 .leaf)) 40566792175310863263700944420980 1493 11 2 (.node (.node (.node .leaf 40566792175310863285691204239410 1494 48 0 .leaf) 40566792175310863861835269931124 1495 2 4 .leaf) 40566811517469117977820185755756 1496 9 0 (.node .leaf 40566811517487564677913426001971 1497 13 1 .leaf))) 40566811517487564677913426002099 1498 13 2 (.node (.node (.node (.node .leaf 40566811517948733319338533060683 1499 2 5 .leaf) 40566811517948733319338533060691 1500 2 5 .leaf) 40566811518022520295633419501683 1501 2 7 (.node .leaf 40566811518105530595586594570350 1502 2 15 .leaf)) 40566811518105530595586602958963 1503 2 11 (.node (.node (.node .leaf 40566830860632719839336295563315 1504 2 5 .leaf) 40566830860632719839336295563443 1505 3 3 .leaf) 40566830860771070477063732330593 1506 12 4 (.node .leaf 40566830860771070477063732330599 1507 12 5 .leaf))))
def ranks71 : Ranks := .node (.node (.node (.node (.node (.node .leaf 40566830860872527327576555782253 1509 11 4 .leaf) 40566830860890974401503774638195 1510 0 1 .leaf) 40566830860918644447245584302131 1511 2 4 (.node (.node .leaf 40566830860918644447245584302259 1512 2 4 .leaf) 40566830860927867885253136744499 1513 2 3 .leaf)) 40566830860927867885253136744627 1514 3 1 (.node (.node (.node .leaf 40566850203694864533680207954030 1515 11 3 .leaf) 40566869546517202069637352652901 1516 34 3 .leaf) 40566888888989050830477267566643 1517 19 0 (.node .leaf 40566888888989050830477267566771 1518 19 1 .leaf))) 40566888889072061341536681459763 1519 2 5 (.node (.node (.node (.node .leaf 40566888889072061341536681459891 1520 3 3 .leaf) 40566888889210411979264118227041 1521 12 4 .leaf) 40566888889210411979264118227047 1522 12 5 (.node .leaf 40566888889210412084817238687845 1523 31 1 .leaf)) 40566888889256528619546056065075 1524 15 0 (.node (.node (.node .leaf 40566888889256528619546056065203 1525 15 1 .leaf) 40566888889311868851767174234226 1526 30 1 .leaf) 40566888889357985949445970198579 1527 2 4 (.node .leaf 40566888889357985949445970198707 1528 2 4 .leaf)))) 40566888889367209387453522640947 1529 2 3 (.node (.node (.node (.node (.node .leaf 40566888889367209387453522641075 1530 3 1 .leaf) 40566908232088089421986943467617 1531 2 9 .leaf) 40566908232088089501151753404530 1532 2 4 (.node .leaf 40566908232088089501151780667493 1533 2 3 .leaf)) 40566908232088089501151780667503 1534 2 4 (.node (.node (.node .leaf 40566927574698289009670272057395 1535 2 5 .leaf) 40566927574698289009670272057523 1536 3 3 .leaf) 40566927574836639647397708824673 1537 12 4 (.node .leaf 40566927574836639647397708824679 1538 12 5 .leaf))) 40566927574864309842673083089011 1539 0 3 (.node (.node (.node (.node .leaf 40566927574864309847071129600114 1540 10 1 .leaf) 40566927574864309847071156863077 1541 10 2 .leaf) 40566927574864309847071156863087 1542 10 2 (.node .leaf 40566927574901203009763123658857 1543 11 5 .leaf)) 40566927574901203031753345728626 1544 30 2 (.node (.node (.node .leaf 40566927574956543541051429748840 1545 0 2 .leaf) 40566927574984213617579560796211 1546 2 4 .leaf) 40566927574984213617579560796339 1547 2 4 (.node .leaf 40566927574993437055587113238579 1548 2 3 .leaf))))
def ranks72 : Ranks := .node ranks70 40566830860798740667941091541114 1508 42 1 ranks71
def ranks73 : Ranks := .node (.node (.node (.node (.node (.node .leaf 40566946917511402843737067356211 1550 2 5 .leaf) 40566946917511402843737067356339 1551 3 3 .leaf) 40566946917649753481464504123489 1552 12 4 (.node (.node .leaf 40566946917649753481464504123495 1553 12 5 .leaf) 40566946917797327451646356095027 1554 2 4 .leaf)) 40566946917797327451646356095155 1555 2 4 (.node (.node (.node .leaf 40566946917806550889653908537395 1556 2 3 .leaf) 40566946917806550889653908537523 1557 3 1 .leaf) 40566966260518207600528835215425 1558 36 1 (.node .leaf 40566966260518207600528843604077 1559 38 1 .leaf))) 40566966260638111441406113349733 1560 2 6 (.node (.node (.node (.node .leaf 40566985603137630511870657953843 1561 2 5 .leaf) 40566985603137630511870657953971 1562 3 3 .leaf) 40566985603275981149598094721121 1563 12 4 (.node .leaf 40566985603275981149598094721127 1564 12 5 .leaf)) 40566985603340544811030686990451 1565 2 7 (.node (.node (.node .leaf 40566985603395885074038128640100 1566 2 8 .leaf) 40566985603423555119779946692659 1567 2 4 .leaf) 40566985603423555119779946692787 1568 2 4 (.node .leaf 40566985603432778509408857489517 1569 14 0 .leaf)))) 40566985603432778557787499135027 1570 2 3 (.node (.node (.node (.node (.node .leaf 40566985603432778557787499135155 1571 3 1 .leaf) 40567004945950744345937453252659 1572 2 5 .leaf) 40567004945950744345937453252787 1573 3 3 (.node .leaf 40567004946089094983664890019937 1574 12 4 .leaf)) 40567004946089094983664890019943 1575 12 5 (.node (.node (.node .leaf 40567004946236668953846741991475 1576 2 4 .leaf) 40567004946236668953846741991603 1577 2 4 .leaf) 40567004946245892391854294433843 1578 2 3 (.node .leaf 40567004946245892391854294433971 1579 3 1 .leaf))) 40567004946264339052365130760308 1580 2 5 (.node (.node (.node (.node .leaf 40567024288763858180004248551475 1581 2 5 .leaf) 40567024288763858180004248551603 1582 3 3 .leaf) 40567024288892985529257695379567 1583 49 1 (.node .leaf 40567024288902208817731685318753 1584 12 4 .leaf)) 40567024288902208817731685318759 1585 12 5 (.node (.node (.node .leaf 40567024288920655319912836759652 1586 11 4 .leaf) 40567024288929878942638332182579 1587 4 1 .leaf) 40567024288929878942638332182707 1588 4 1 (.node .leaf 40567024289049782787913537290291 1589 2 4 .leaf))))
def ranks74 : Ranks := .node (.node (.node (.node (.node (.node .leaf 40567024289059006225921089732659 1591 2 3 .leaf) 40567024289059006225921089732787 1592 3 1 .leaf) 40567043631742992776704997458020 1593 51 0 (.node .leaf 40567043631853672946478247575656 1594 11 4 .leaf)) 40567043631853672946478247575661 1595 11 4 (.node (.node (.node .leaf 40567043631853672946478253867124 1596 11 2 .leaf) 40567043631853672946478258061421 1597 11 4 .leaf) 40567043631853672946478260158574 1598 11 3 (.node .leaf 40567043631853672946478264352877 1599 11 2 .leaf))) 40567043631853672946478268547177 1600 11 5 (.node (.node (.node (.node .leaf 40567043631853672946478279032932 1601 11 4 .leaf) 40567043631853672946478283227237 1602 11 4 .leaf) 40567043631853672946478283227240 1603 11 4 (.node .leaf 40567043631853672946478293712996 1604 11 3 .leaf)) 40567043631853673245545406136429 1605 11 4 (.node (.node (.node .leaf 40567043631853673254341541101682 1606 11 5 .leaf) 40567043631853673280729786613857 1607 11 6 .leaf) 40567043631881343401238292594788 1608 27 1 (.node .leaf 40567043631881343410034509348965 1609 2 9 .leaf)))) 40567043631909013548135253803083 1610 2 12 (.node (.node (.node (.node (.node .leaf 40567043631909013548135253803091 1611 2 10 .leaf) 40567062974556106360083286327397 1612 11 4 .leaf) 40567062974556106659150449082472 1613 10 3 (.node .leaf 40567062974583776476193850654824 1614 11 4 .leaf)) 40567062974648340379518931828811 1615 2 13 (.node (.node (.node .leaf 40567062974648340379518931828819 1616 2 11 .leaf) 40567062974648340379518984257637 1617 2 12 .leaf) 40567082317203199682204634447923 1618 2 5 (.node .leaf 40567082317203199682204634448051 1619 3 3 .leaf))) 40567082317341550319932071215201 1620 12 4 (.node (.node (.node (.node .leaf 40567082317341550319932071215207 1621 12 5 .leaf) 40567082317424560751826641617006 1622 2 14 .leaf) 40567082317489124290113923186739 1623 2 4 (.node .leaf 40567082317489124290113923186867 1624 2 4 .leaf)) 40567082317498347728121475629107 1625 2 3 (.node (.node (.node .leaf 40567082317498347728121475629235 1626 3 1 .leaf) 40567082317498347728121479823470 1627 2 12 .leaf) 40567121002995448121768397504627 1628 0 3 (.node .leaf 40567121003133798398856018264186 1629 2 7 .leaf))))
def ranks75 : Ranks := .node ranks73 40567024289049782787913537290419 1590 2 4 ranks74
def ranks76 : Ranks := .node ranks72 40566927574993437055587113238707 1549 3 1 ranks75
def ranks77 : Ranks := .node ranks69 40566753489509391847924523073715 1467 2 3 ranks76
def ranks78 : Ranks := .node (.node (.node (.node (.node (.node .leaf 40567159688455655018471815643315 1631 3 3 .leaf) 40567159688594005656199252410465 1632 12 4 .leaf) 40567159688594005656199252410471 1633 12 5 (.node (.node .leaf 40567159688612452158380418531428 1634 11 3 .leaf) 40567159688621675772309816737907 1635 0 3 .leaf)) 40567159688741579626381104382003 1636 2 4 (.node (.node (.node .leaf 40567159688741579626381104382131 1637 2 4 .leaf) 40567159688750803064388656824371 1638 2 3 .leaf) 40567159688750803064388656824499 1639 3 1 (.node .leaf 40567179031268768852538610942003 1640 2 5 .leaf))) 40567179031268768852538610942131 1641 3 3 (.node (.node (.node (.node .leaf 40567179031407119490266047709281 1642 12 4 .leaf) 40567179031407119490266047709287 1643 12 5 .leaf) 40567179031554693460447899680819 1644 2 4 (.node .leaf 40567179031554693460447899680947 1645 2 4 .leaf)) 40567179031563916898455452123187 1646 2 3 (.node (.node (.node .leaf 40567179031563916898455452123315 1647 3 1 .leaf) 40568320257242485062479533572147 1648 2 5 .leaf) 40568320257242485062479533572275 1649 3 3 (.node .leaf 40568320257380835700206970339425 1650 12 4 .leaf)))) 40568320257380835700206970339431 1651 12 5 (.node (.node (.node (.node (.node .leaf 40568320257528409670388822310963 1652 2 4 .leaf) 40568320257528409670388822311091 1653 2 4 .leaf) 40568320257537633108396374753331 1654 2 3 (.node .leaf 40568320257537633108396374753459 1655 3 1 .leaf)) 85072538842446336281386088410174718030 1656 10 5 (.node (.node (.node .leaf 85072538842446336281386088410241826926 1657 10 4 .leaf) 85072579407284886554638240133557518401 1658 24 2 .leaf) 85072579407284886554638240133557518407 1659 24 2 (.node .leaf 85072579407284886683765527814342705217 1660 23 2 .leaf))) 85072579407284886683765527814342705223 1661 23 2 (.node (.node (.node (.node .leaf 85072579407284886849786286050465808481 1662 24 1 .leaf) 85072579407284886849786286050465808487 1663 24 1 .leaf) 85072579407284886978913573731250995297 1664 23 1 (.node .leaf 85072579407284886978913573731250995303 1665 23 1 .leaf)) 85073228444972487930634054557610541125 1666 37 1 (.node (.node (.node .leaf 85073228445591458245424790611968393317 1667 37 0 .leaf) 85073269009559581495055620132019634253 1668 15 2 .leaf) 85073269009559581495055646520298700877 1669 15 2 (.node .leaf 85073269009559581495055694898856460364 1670 2 5 .leaf))))
def ranks79 : Ranks := .node (.node (.node (.node (.node (.node .leaf 85073309574514188204268694186795991112 1672 11 5 .leaf) 85073309574514189384860314904207294536 1673 11 5 .leaf) 85073309574610902269837864520772485197 1674 11 5 (.node (.node .leaf 85073350139275367215842071635428376645 1675 0 4 .leaf) 85073390704655516376185484077015498849 1676 12 4 .leaf)) 85073390704752229962139286504302706796 1677 9 1 (.node (.node (.node .leaf 85073431268836410708419011710073962579 1678 1 4 .leaf) 85073431269049181191502646174780751955 1679 2 7 .leaf) 85073431269203923871657246671853584468 1680 11 3 (.node .leaf 85073431269203925052248867389264887892 1681 11 3 .leaf))) 85073431269455381023209747764431814771 1682 1 3 (.node (.node (.node (.node .leaf 85073471833268761703366379657064611923 1683 9 1 .leaf) 85073471833307447237360318625953611859 1684 33 2 .leaf) 85073471833655617956419675761982570574 1685 2 6 (.node .leaf 85073471833810360461330348296357544011 1686 2 7 .leaf)) 85073471833984445677897749297958486099 1687 2 16 (.node (.node (.node .leaf 85073471834293930982867179866020642913 1688 12 4 .leaf) 85073471834390644568820982293307850860 1689 9 1 .leaf) 85073512398706938786542103993295831117 1690 11 5 (.node .leaf 85073552963545488902996785954595799118 1691 11 4 .leaf)))) 85073552963545490083588406672007102542 1692 11 4 (.node (.node (.node (.node (.node .leaf 85073593528384039333046244712296480851 1693 34 4 .leaf) 85073593529003009647836980766654333043 1694 34 3 .leaf) 85073634093009818422238447587626582094 1695 1 3 (.node .leaf 85073634093048503762541542996313112652 1696 9 2 .leaf)) 85073634093048503780988243089553358898 1697 12 5 (.node (.node (.node .leaf 85073634093048503780988243089553359026 1698 12 5 .leaf) 85073634093048503780988287069955555411 1699 33 3 .leaf) 85073634093106532220329815658683433011 1700 18 1 (.node .leaf 85073634093106532220329815658683433139 1701 18 2 .leaf))) 85073634093106532220329956396238897203 1702 18 1 (.node (.node (.node (.node .leaf 85073634093570760196230571444030931041 1703 12 4 .leaf) 85073634093628788737029183641984434286 1704 1 2 .leaf) 85073634093667473782184373871318138988 1705 9 1 (.node .leaf 85073634093667473800631073964558385202 1706 12 4 .leaf)) 85073674657770997018759933844233650227 1707 13 1 (.node (.node (.node .leaf 85073674657770997018759947038360600626 1708 12 5 .leaf) 85073674657770997018759947038360600754 1709 12 5 .leaf) 85073674657770997018759991018838294594 1710 13 2 (.node .leaf 85073674657770997018760017407083806771 1711 20 1 .leaf))))
def ranks80 : Ranks := .node ranks78 85073309574475502541147630264758829145 1671 26 2 ranks79
def ranks81 : Ranks := .node (.node (.node (.node (.node (.node .leaf 85073674657906396885800893788559769683 1713 2 10 .leaf) 85073674657906397051821533277376741459 1714 2 5 .leaf) 85073674657906397051821590451954122835 1715 2 4 (.node (.node .leaf 85073715222300062125393261940673871961 1716 29 1 .leaf) 85073715222725604050791007198637981769 1717 11 6 .leaf)) 85073715222725604299822219319499030597 1718 0 2 (.node (.node (.node .leaf 85073715222725605231382627916049285193 1719 11 6 .leaf) 85073715222802975893542457289778135148 1720 2 4 .leaf) 85073715222802975893542457289778135151 1721 2 4 (.node .leaf 85073715222802975893542457289778135159 1722 2 4 .leaf))) 85073715222841661178505219322199146579 1723 0 3 (.node (.node (.node (.node .leaf 85073715223209174802912267233036075105 1724 12 4 .leaf) 85073715223305888388866069660323283052 1725 9 1 .leaf) 85073715224775942203964022490472120409 1726 29 2 (.node .leaf 85073755786945184442750904201839116338 1727 33 3 .leaf)) 85073755786945184737898809381259051058 1728 33 2 (.node (.node (.node .leaf 85073755787467440433718074880456392782 1729 22 1 .leaf) 85073755788086410748508810934814244974 1730 22 0 .leaf) 85073796352596132663869844745179103315 1731 2 7 (.node .leaf 85073836917028483741827569819938979907 1732 10 4 .leaf)))) 85073836917028483751050871488041189452 1733 12 2 (.node (.node (.node (.node (.node .leaf 85073836917183226209844758604962332747 1734 2 7 .leaf) 85073836917299283153091340875402838099 1735 2 9 .leaf) 85073836917376654294866076360889073748 1736 13 2 (.node .leaf 85073836917647454065841607542399041644 1737 12 1 .leaf)) 85073836917666796712934810916543791201 1738 12 4 (.node (.node (.node .leaf 85073836917763510298888613343830999148 1739 9 1 .leaf) 85073877482234547150647770025801285715 1740 2 6 .leaf) 85073877482486004016275658811046363233 1741 12 4 (.node .leaf 85073877482582717602229461238333571180 1742 9 1 .leaf))) 85073918046724926501926076337184833604 1743 11 5 (.node (.node (.node (.node .leaf 85073918046724927682517697054596137028 1744 11 5 .leaf) 85073918047305211319616506705548935265 1745 12 4 .leaf) 85073918047401924905570309132836143212 1746 9 1 (.node .leaf 85073958611563476765954851625639084100 1747 0 3 .leaf)) 85073958611640848036856923170417934414 1748 39 2 (.node (.node (.node .leaf 85073958611795590200502790758726631501 1749 11 5 .leaf) 85073958611795590200502799554861596754 1750 11 6 .leaf) 85073958611795590200502825943107108929 1751 11 7 (.node .leaf 85073958611795590615554554407447167045 1752 11 6 .leaf))))
def ranks82 : Ranks := .node (.node (.node (.node (.node (.node .leaf 85073958612259818351647659224775786606 1754 39 1 .leaf) 85073999176382683921721606192989470789 1755 11 5 .leaf) 85073999176382685102313226910400774213 1756 11 5 (.node .leaf 85073999176440712361063108393375367240 1757 11 5 .leaf)) 85073999176440713541654729110786670664 1758 11 5 (.node (.node (.node .leaf 85073999176576112301891128195431792723 1759 2 12 .leaf) 85073999176943625926298202494554079329 1760 12 4 .leaf) 85073999177040339512252004921841287276 1761 9 1 (.node .leaf 85073999177195082616681864249789644915 1762 2 12 .leaf))) 85074039741317948408116876441947209811 1763 2 14 (.node (.node (.node (.node .leaf 85074039741317948583361059491460153452 1764 2 7 .leaf) 85074039741317948666371407823157330036 1765 2 7 .leaf) 85074039741317948703264922358855499891 1766 2 14 (.node .leaf 85074039741472690913027548976309600339 1767 2 12 .leaf)) 85074039741472691088271732025822543980 1768 2 7 (.node (.node (.node .leaf 85074039741472691171282080357519720564 1769 2 7 .leaf) 85074039741472691208175594893217890419 1770 2 12 .leaf) 85074080306214526890126106299014840399 1771 36 2 (.node .leaf 85074080306833497204916842353372692591 1772 36 1 .leaf)))) 85074202000459377625312011598717517892 1773 11 4 (.node (.node (.node (.node (.node .leaf 85074202000459378805903632316128821316 1774 11 4 .leaf) 85074202001039662443002441967066939489 1775 12 4 .leaf) 85074202001136376028956244394354147436 1776 9 1 (.node .leaf 85074242565858869746343289861569511521 1777 12 4 .leaf)) 85074242565955583332297092288856719468 1778 9 1 (.node (.node (.node .leaf 85074526519593320869729225123087515745 1779 12 4 .leaf) 85074526519690034455683027550374723692 1780 9 1 .leaf) 85074567084393185516753268908182470772 1781 16 0 (.node .leaf 85074567084393185516753488810392682605 1782 15 1 .leaf))) 85074567084393185516753515198671749229 1783 15 1 (.node (.node (.node (.node .leaf 85074567084393185516753563577296617580 1784 2 4 .leaf) 85074567084393185516753567975229882477 1785 15 2 .leaf) 85074607649231735476410920912092659809 1786 12 4 (.node .leaf 85074607649309106267697593763846160505 1787 26 1 .leaf)) 85074607649328449062364723339379867756 1788 9 1 (.node (.node (.node .leaf 85074607649347791847808397315131047986 1789 2 5 .leaf) 85074607649347791921595122921307635816 1790 2 5 .leaf) 85074607649347791930818516948394967144 1791 11 4 (.node .leaf 85074607649347793111410137665806270568 1792 11 4 .leaf))))
def ranks83 : Ranks := .node ranks81 85073958611853619073342822671760490579 1753 2 10 ranks82
def ranks84 : Ranks := .node ranks80 85073674657829025624122137106054119493 1712 10 5 ranks83
def ranks85 : Ranks := .node (.node (.node (.node (.node (.node .leaf 85074607649444505913377567649118027954 1794 2 2 .leaf) 85074607649444505987164293255284129901 1795 2 2 .leaf) 85074607649444505996387687282371461229 1796 11 4 (.node (.node .leaf 85074607649444507167755913972695433325 1797 2 2 .leaf) 85074648214031599837510594282425155635 1798 2 5 .leaf)) 85074648214031599837510594282425155763 1799 3 3 (.node (.node (.node .leaf 85074648214031599975861232009861922913 1800 12 4 .leaf) 85074648214031599975861232009861922919 1801 12 5 .leaf) 85074648214031600123435202191713894451 1802 2 4 (.node .leaf 85074648214031600123435202191713894579 1803 2 4 .leaf))) 85074648214031600132658640199266336819 1804 2 3 (.node (.node (.node (.node .leaf 85074648214031600132658640199266336947 1805 3 1 .leaf) 85074648214050942779751768806595231841 1806 12 4 .leaf) 85074648214108971237539940313868533861 1807 0 3 (.node .leaf 85074648214147656365705571233882439788 1808 9 1 .leaf)) 85074648214360427789573091885053902952 1809 2 9 (.node (.node (.node .leaf 85074729343670014730116880388514119795 1810 1 3 .leaf) 85074729343689357386433464595600375905 1811 12 4 .leaf) 85074729343786070972387267022887583852 1812 9 1 (.node .leaf 85074729343882784918052609673868083315 1813 2 7 .leaf)))) 85074729344037527515196962994347049010 1814 2 3 (.node (.node (.node (.node (.node .leaf 85074729344037527515196962994347049138 1815 2 4 .leaf) 85074729344037527588983675406365229172 1816 2 3 .leaf) 85074729344037527598207069433452560500 1817 11 2 (.node .leaf 85074729344037528778798690150863863924 1818 11 2 .leaf)) 85074769907483395705421558198055207027 1819 9 1 (.node (.node (.node .leaf 85074769907522081239415497166877098099 1820 33 1 .leaf) 85074769908489221978117544440422727790 1821 2 5 .leaf) 85074769908643964483028216974730592331 1822 2 6 (.node .leaf 85074769908643964483028216974730592339 1823 2 7 .leaf))) 85074769908643964483028216974797701227 1824 2 7 (.node (.node (.node (.node .leaf 85074769908818049699595617976398643315 1825 2 16 .leaf) 85074810473327771993115160384605519969 1826 12 4 .leaf) 85074810473424485579068962811892727916 1827 9 1 (.node .leaf 85074810473540542513091926754894807149 1828 11 4 .leaf)) 85074851038379092546536515471209922610 1829 2 4 (.node (.node (.node .leaf 85074851038379092546536515471209922738 1830 2 5 .leaf) 85074851038379092620323214689107443822 1831 2 4 .leaf) 85074851038379092629546608716194775150 1832 11 3 (.node .leaf 85074851038379093800914835406518747246 1833 2 5 .leaf))))
def ranks86 : Ranks := .node (.node (.node (.node (.node (.node .leaf 85074891603217643354744113390736638067 1835 34 4 .leaf) 85074932167321165927237089020321202227 1836 18 0 .leaf) 85074932167321165927237089020321202355 1837 18 1 (.node (.node .leaf 85074932167785393903137704068113236065 1838 12 4 .leaf) 85074932167843422443936316266066739310 1839 1 3 .leaf)) 85074932167882107489091506495400444012 1840 9 1 (.node (.node (.node .leaf 85074932167882107507538206588640690226 1841 12 4 .leaf) 85074932167882107507538206588640690354 1842 12 4 .leaf) 85074932167882107507538250568975777907 1843 33 2 (.node .leaf 85074972732604600745309897343320981555 1844 13 0 .leaf))) 85074972732604600745309910537447931954 1845 12 4 (.node (.node (.node (.node .leaf 85074972732604600745309910537447932082 1846 12 4 .leaf) 85074972732604600745309954517925625954 1847 13 1 .leaf) 85074972732604600745309980906171138099 1848 20 0 (.node .leaf 85074972732662629645820005784494276709 1849 10 4 .leaf)) 85074972732740000907498762466999926899 1850 2 10 (.node (.node (.node .leaf 85074972732740001073519401955816898675 1851 2 5 .leaf) 85074972732740001073519459130394280051 1852 2 4 .leaf) 85075013296514695832300535302311641209 1853 29 0 (.node .leaf 85075013297423808509819399857118380129 1854 12 4 .leaf)))) 85075013297520522095773202284405588076 1855 9 1 (.node (.node (.node (.node (.node .leaf 85075013297559207694330754307419275314 1856 2 7 .leaf) 85075013297559207768117435933149626473 1857 2 7 .leaf) 85075013297559207777340829960236957801 1858 11 5 (.node .leaf 85075013297559208321520087997939187813 1859 0 1 .leaf)) 85075013297559208957932450677648261225 1860 11 5 (.node (.node (.node .leaf 85075013297675265200203088000639303795 1861 0 3 .leaf) 85075013298990575910871295852109889657 1862 29 1 .leaf) 85075053862243015813160247751620952161 1863 12 4 (.node .leaf 85075053862301044455415943558896549998 1864 22 1 .leaf))) 85075053862339729399114050178908160108 1865 9 1 (.node (.node (.node (.node .leaf 85075094427429736685567713423619260531 1866 2 7 .leaf) 85075134991862087763525438498379137123 1867 10 3 .leaf) 85075134991881430419841943540626096225 1868 12 4 (.node .leaf 85075134991978144005795745967913304172 1869 9 1 .leaf)) 85075134992016830231542627283335381067 1870 2 6 (.node (.node (.node .leaf 85075134992016830231542627283335381075 1871 2 7 .leaf) 85075134992016830231542627283402489963 1872 2 7 .leaf) 85075134992132887174789209553842995315 1873 2 9 (.node .leaf 85075134992210258316563804301840875636 1874 13 1 .leaf))))
def ranks87 : Ranks := .node ranks85 85074851038379093810138229433606078574 1834 11 3 ranks86
def ranks88 : Ranks := .node (.node (.node (.node (.node (.node .leaf 85075134992210258316564050592330154093 1876 14 1 .leaf) 85075175556700637723182791435128668257 1877 12 4 .leaf) 85075175556797351309136593862415876204 1878 9 1 (.node (.node .leaf 85075175557068151172345638704241442931 1879 2 6 .leaf) 85075216121519845026523639329631240289 1880 12 4 .leaf)) 85075216121558530145465845436177711154 1881 5 1 (.node (.node (.node .leaf 85075216121558530219252505071696478308 1882 5 1 .leaf) 85075216121558530228475899098783809636 1883 11 4 .leaf) 85075216121558531409067519816195113060 1884 11 4 (.node .leaf 85075216121616558612477441756918448236 1885 9 1 .leaf))) 85075256686397080787652720304079241316 1886 0 2 (.node (.node (.node (.node .leaf 85075256686629193927052754257813962861 1887 11 4 .leaf) 85075256686629193927052763053948928114 1888 11 5 .leaf) 85075256686629193927052789442194440289 1889 11 6 (.node .leaf 85075256686629194637252423085887324261 1890 11 5 .leaf)) 85075256686687223095040691350200647795 1891 2 10 (.node (.node (.node .leaf 85075297251216287565261384088073273394 1892 2 5 .leaf) 85075297251216287639048034927501115493 1893 2 5 .leaf) 85075297251216287648271428954588446821 1894 11 4 (.node .leaf 85075297251216288828863049671999750245 1895 11 4 .leaf)))) 85075297251274316004602886288465461298 1896 2 5 (.node (.node (.node (.node (.node .leaf 85075297251274316078389537127887011944 1897 2 5 .leaf) 85075297251274316087612931154974343272 1898 11 4 .leaf) 85075297251274317268204551872385646696 1899 11 4 (.node .leaf 85075297251409716323588996873871949939 1900 2 12 .leaf)) 85075337815977466936546183013138956385 1901 12 4 (.node (.node (.node .leaf 85075337816074180522499985440426164332 1902 9 1 .leaf) 85075337816151552429814745120387367027 1903 2 14 .leaf) 85075337816306294934725417654749757555 1904 2 12 (.node .leaf 85075500075254296149909574591149244513 1905 12 4 .leaf))) 85075500075292981268851811484021293106 1906 2 5 (.node (.node (.node (.node .leaf 85075500075292981268851811484021293234 1907 2 5 .leaf) 85075500075292981342638440333229162596 1908 2 5 .leaf) 85075500075292981351861834360316493924 1909 11 3 (.node .leaf 85075500075292982523230061050640466020 1910 2 5 .leaf)) 85075500075292982532453455077727797348 1911 11 3 (.node (.node (.node .leaf 85075500075351009735863377018436452460 1912 9 1 .leaf) 85075540640073503453250422485651816545 1913 12 4 .leaf) 85075540640170217039204224912939024492 1914 9 1 (.node .leaf 85077933964406734350360448261303566433 1915 12 4 .leaf))))
def ranks89 : Ranks := .node (.node (.node (.node (.node (.node .leaf 178411491179384730055452830110941690019709010 1917 12 4 .leaf) 178411576249935895451519040668526623565283411 1918 2 5 .leaf) 178411576249976460154669142508344429309329497 1919 28 2 (.node .leaf 178411661320527625570078000159115144769568837 1920 34 5 .leaf)) 178411661320689884846907250415955287805526099 1921 1 2 (.node (.node (.node .leaf 178411661320689884885592885867048234802741337 1922 0 4 .leaf) 178411661321095533213065537285362964267794498 1923 40 1 .leaf) 178411661321825700403682021856983823209726053 1924 34 4 (.node .leaf 178411661321987959680511272113823966245683315 1925 1 1 .leaf))) 178411661322393608046669558983231642707951714 1926 40 0 (.node (.node (.node (.node .leaf 178411746391119355824036337851774133212282957 1927 11 5 .leaf) 178411746391281614907437632214381890937815123 1928 0 4 .leaf) 178411746391281614984809041467047182696710227 1929 13 5 (.node .leaf 178411916532302816389982347245805030749503567 1930 1 4 .leaf)) 178411916533073547355293738172362292241367129 1931 26 3 (.node (.node (.node .leaf 178411916533114112774128201925214869259288658 1932 11 6 .leaf) 178411916533114112774128515519903704725585991 1933 10 3 .leaf) 178411916533600891223586368943673709189660783 1934 1 3 (.node .leaf 178412001601961555492688150222816396504465458 1935 22 3 .leaf)))) 178412001602894546508541435863593271844405331 1936 2 6 (.node (.node (.node (.node (.node .leaf 178412001603219065062199862590402816137756755 1937 2 7 .leaf) 178412086673648535845901270833044828834496581 1938 11 5 .leaf) 178412341885504855704593082636161098964795442 1939 22 2 (.node .leaf 178412341885504855762621521977804036824367187 1940 9 2 .leaf)) 178412341885626550258929104344832057733546035 1941 17 1 (.node (.node (.node .leaf 178412341885626550258929104344832057733546163 1942 17 2 .leaf) 178412341885626550258929113568270065285988403 1943 18 2 .leaf) 178412341885626550258929113568270065285988531 1944 18 2 (.node .leaf 178412341885626550258929399492877974641836083 1945 17 1 .leaf))) 178412341885626550258929408716315982194278451 1946 18 1 (.node (.node (.node (.node .leaf 178412341886802929977255524032982577814962291 1947 9 2 .leaf) 178412426956015456745678720598406957595885633 1948 11 7 .leaf) 178412426956664494201166597482638408165621837 1949 0 4 (.node .leaf 178412512026769446508580766890326031014559827 1950 0 2 .leaf)) 178412767238544637212428355197913966045036627 1951 2 7 (.node (.node (.node .leaf 178412767238950285307787147792986751075614804 1952 13 2 .leaf) 178412767238950285307787203133218972204269652 1953 13 2 .leaf) 178412852309623145026075272205149217910423634 1954 2 11 (.node .leaf 178412852309623145026075272205149217943978059 1955 2 6 .leaf))))
def ranks90 : Ranks := .node ranks88 85077933964503447936314250688590774380 1916 9 1 ranks89
def ranks91 : Ranks := .node ranks87 85075134992210258316564024204051087469 1875 14 1 ranks90
def ranks92 : Ranks := .node ranks84 85074607649444505913377567649118027826 1793 2 2 ranks91
def ranks93 : Ranks := .node ranks77 40567159688455655018471815643187 1630 2 5 ranks92
def ranks94 : Ranks := .node (.node (.node (.node (.node (.node .leaf 178412937380701653961605598845902096103899237 1957 1 1 .leaf) 178413022450076438846289286508269508055007321 1958 26 1 .leaf) 178413022450157568426675453848463096674254937 1959 51 2 (.node (.node .leaf 178413022450157568426675748996412256498483283 1960 0 3 .leaf) 178413022450482086670848870753901183932301378 1961 45 2 .leaf)) 178413022450482086670848870753901183970050137 1962 27 1 (.node (.node (.node .leaf 178413022450482089146728949324661733768298585 1963 27 2 .leaf) 178413022450644346450591427991233678215741522 1964 11 2 .leaf) 178413022450766040695442190847347447417536601 1965 25 2 (.node .leaf 178413192591584418043265113435044362068164677 1966 8 1 .leaf))) 178413192591584418662235428225780416426016869 1967 8 0 (.node (.node (.node (.node .leaf 178413192591584418700921054453391375443427444 1968 2 6 .leaf) 178413192591908936596923540161827518088740933 1969 7 1 .leaf) 178413192591908937215893854952563572446593125 1970 7 0 (.node .leaf 178413192591908937254579481180174531464003700 1971 2 6 .leaf)) 178414213439618172396764263657764643252732018 1972 12 3 (.node (.node (.node .leaf 178414213439618172396764383561601122364817522 1973 12 4 .leaf) 178414213439618172396764844730202965103607922 1974 12 4 .leaf) 178414298510169337792830612565692635095761012 1975 16 1 (.node .leaf 178414298510169337792830667905924856224415860 1976 16 1 .leaf)))) 178414298510169337792830769363254756151132275 1977 2 5 (.node (.node (.node (.node (.node .leaf 178414298510169337792830778586389298481725556 1978 16 1 .leaf) 178414298510169337792830778586609200691937389 1979 15 2 .leaf) 178414298510169337792830778586635588971004013 1980 15 2 (.node .leaf 178414298510209902495980576055167382542352505 1981 28 1 .leaf)) 178414383580761067911389728853843277355417701 1982 34 4 (.node (.node (.node .leaf 178414383580923327188218979110683420391374963 1983 1 2 .leaf) 178414383580923327226904614561776367388590201 1984 0 3 .leaf) 178414468651352797952577334431945951398592609 1985 12 4 (.node .leaf 178414468651352798049290920385748378685800556 1986 9 1 .leaf))) 178414468651352798165347771398597086445305965 1987 11 4 (.node (.node (.node (.node .leaf 178414468651515057248749360909110023523663987 1988 0 4 .leaf) 178414468651515057326120770161775315282559091 1989 13 4 .leaf) 178414638793306989077635152076495108024828025 1990 26 2 (.node .leaf 178414638793347555115439635472037822492311666 1991 11 5 .leaf)) 178414638793347555115440244214631837311434855 1992 10 2 (.node (.node (.node .leaf 178414723860896923619366172010271167519653938 1993 22 2 .leaf) 178414723861018618270416231618167873497727091 1994 9 1 .leaf) 178414723863127988849853164558321404430254195 1995 2 6 (.node .leaf 178414723863452507403511591284990211168141427 1996 2 7 .leaf))))
def ranks95 : Ranks := .node (.node (.node (.node (.node (.node .leaf 178414808933881978187212999527772961420345445 1998 11 4 .leaf) 178415064144561917766637106489737428787527731 1999 17 0 .leaf) 178415064144561917766637106489737428787527859 2000 17 1 (.node (.node .leaf 178415064144561917766637115713175436339970227 2001 18 1 .leaf) 178415064145738297426934791688058356612726834 2002 22 1 .leaf)) 178415064145738297484963231029842031960653939 2003 9 2 (.node (.node (.node .leaf 178415149216248899086990154145229910828908641 2004 11 6 .leaf) 178415149216897936542478326177366540751470701 2005 0 3 .leaf) 178415234287002888849892495585054163600408691 2006 0 2 (.node .leaf 178415404428673127149611701341769979398193227 2007 2 6 .leaf))) 178415489498615820354281966187191792532717684 2008 49 2 (.node (.node (.node (.node .leaf 178415489498778079553740083892501361075421299 2009 2 7 .leaf) 178415489498778079553740083892642098630885491 2010 2 7 .leaf) 178415489499183727649098876487574146173108340 2011 13 1 (.node .leaf 178415489499183727649098931827806367301763188 2012 13 1 .leaf)) 178415574569856587367387000899877350462718027 2013 2 5 (.node (.node (.node .leaf 178415574569856587367387000899877350462718035 2014 2 6 .leaf) 178415574569856587367387000899877350496272498 2015 2 10 .leaf) 178415574569856587367387000899877350529826923 2016 2 6 (.node .leaf 178415659639637021469313305842761550249590885 2017 1 2 .leaf)))) 178415744710309881187600720055092461288030329 2018 26 0 (.node (.node (.node (.node (.node .leaf 178415744710391010767986887395286049907277945 2019 51 1 .leaf) 178415744710391010767987477691140389084332147 2020 0 3 .leaf) 178415744710715528393190284658033999648653410 2021 45 1 (.node .leaf 178415744710715528393190284658033999753511033 2022 27 0 .leaf)) 178415744710715530869070363228794549551759481 2023 27 1 (.node (.node (.node .leaf 178415744710877788791903156685961810801590386 2024 11 1 .leaf) 178415744710999483036753624394170400650559609 2025 25 1 .leaf) 178415914851817860384576842129772494654013541 2026 8 1 (.node .leaf 178415914852142378938235268856555650674589797 2027 7 1 .leaf))) 374156372362007433467590891781741259173829537693765 2028 11 2 (.node (.node (.node (.node .leaf 374156372362007433467590891781851939713038600372307 2029 0 4 .leaf) 374156550767628739305089628083648160721426949603405 2030 11 5 .leaf) 374156907580998115367696360122570861134484642725966 2031 49 1 (.node .leaf 374156907581253327832488681008974100380638534172754 2032 11 6 .leaf)) 374156907581253327832491156889052671141188332421202 2033 11 6 (.node (.node (.node .leaf 374157085985513503999480689304206357235038332911691 2034 2 5 .leaf) 374157085985513503999480689304206357235038332911699 2035 2 5 .leaf) 374157799609870279150598792436618190973999649914930 2036 34 4 (.node .leaf 374157799610040421713263153402483385740967752499277 2037 2 10 .leaf))))
def ranks96 : Ranks := .node ranks94 178414723863452507403511591285130948723605619 1997 2 7 ranks95
def ranks97 : Ranks := .node (.node (.node (.node (.node (.node .leaf 374157978015661727145113794345440894684445450174529 2039 11 7 .leaf) 374157978015661727145116270225519465444995248422977 2040 11 7 .leaf) 374157978016512433589759177055166688361620881539150 2041 2 13 (.node (.node .leaf 374157978017022857342964932243910102961350166708307 2042 0 4 .leaf) 374158870046830797837723809255573092639280744890451 2043 2 11 .leaf)) 374158870046830797837723809255573092709649474388051 2044 2 6 (.node (.node (.node .leaf 374159226858073409025944050999285375765158584909871 2045 45 1 .leaf) 374159226858073409025944457198167075472185332072530 2046 45 2 .leaf) 374159226858073409025944457198167075511767782129729 2047 46 2 (.node .leaf 374159226858668903776527981419896394046581717860399 2048 44 1 .leaf))) 374159226858668903776528387618778093815181153927241 2049 44 2 (.node (.node (.node (.node .leaf 374159226858668904222741070071291907910108566257753 2050 27 2 .leaf) 374159583669826445143750578655822703830992492167246 2051 2 6 .leaf) 374159583669826445468269519170530153999975688699987 2052 8 1 (.node .leaf 374159583669826446441825412259844401699670932324462 2053 2 5 .leaf)) 374159583669826446766344352774551851868654128857203 2054 8 1 (.node (.node (.node .leaf 374159583670081657000071288431476079298838116958291 2055 49 2 .leaf) 374159583670507009877592455582749453045856028590158 2056 2 6 .leaf) 374159583670507010202111396097456903214839225122899 2057 7 1 (.node .leaf 374159583670507011175667289186771150914534468747374 2058 2 5 .leaf)))) 374159583670507011500186229701478601083517665280115 2059 7 1 (.node (.node (.node (.node (.node .leaf 374159762076128315958481112954730648936183268114509 2060 37 2 .leaf) 374159762078850576191923454266164195618399012782189 2061 37 1 .leaf) 374161902949198647090910652974464658449497864536180 2062 16 1 (.node .leaf 374161902949198647090910652974519998681718993191028 2063 16 1 .leaf)) 374162081355500517540557466237347751882507654529125 2064 11 1 (.node (.node (.node .leaf 374162081355500517540557466237458432421716717207667 2065 0 4 .leaf) 374162259761121823378055583568939862834788264050797 2066 11 4 .leaf) 374162616573980773253568510522077842738837662466123 2067 2 6 (.node .leaf 374162616574491199440662934578177353843162759561326 2068 49 0 .leaf))) 374162616574746411905454462409455063515396394975282 2069 2 6 (.node (.node (.node (.node .leaf 374162616574746411905454617151406571799748779442290 2070 2 6 .leaf) 374162616574746411905454636494265802493999848620146 2071 11 5 .leaf) 374162616574746411905457112374344373254549646868594 2072 11 5 (.node .leaf 374162794979006588072447263759812849943716382638155 2073 2 4 .leaf)) 374162794979006588072447263759812849943716382638163 2074 2 4 (.node (.node (.node .leaf 374162794979006588072447263759812849943716449747051 2075 2 5 .leaf) 374162794979006588072447263759812849943716449747059 2076 2 5 .leaf) 374163508603363361925491152258222628504136843264050 2077 34 3 (.node .leaf 374163508603533505786229727858089878449645869334637 2078 2 9 .leaf))))
def ranks98 : Ranks := .node (.node (.node (.node (.node (.node .leaf 374163687009154811218079730487873366103555695444065 2080 2 8 .leaf) 374163687009154811218079749830732596797806764621921 2081 11 6 .leaf) 374163687009154811218082225710811167558356562870369 2082 11 6 (.node .leaf 374163687010005517662725751510478033165119645548654 2083 2 12 .leaf)) 374163687010005517662725751510597937001598757634158 2084 2 13 (.node (.node (.node .leaf 374163687010005517662725751511059105603441496424558 2085 2 13 .leaf) 374163687010515941415931506699516595670028283543667 2086 0 4 .leaf) 374164579040323881910690383711179585277590035759219 2087 2 6 (.node .leaf 374164579040323881910690383711179585347958861725811 2088 2 11 .leaf))) 374164579040323881910690383711179585418327591223411 2089 2 6 (.node (.node (.node (.node .leaf 374164935851566491800836817019771513143060013777010 2090 45 1 .leaf) 374164935851566491800836817019771513182642396725345 2091 46 1 .leaf) 374164935852161987849494962074089438618679917936745 2092 44 1 (.node .leaf 374164935852161988295707025556583610023469880705145 2093 27 1 .leaf)) 374165292663319529216717153111429196539670609002606 2094 2 6 (.node (.node (.node .leaf 374165292663319529541236093626136646708653805535347 2095 8 1 .leaf) 374165292663574741073037862887082572007516233793651 2096 49 1 .leaf) 374165292664000093950559030038355945754534145425518 2097 2 6 (.node .leaf 374165292664000094275077970553063395923517341958259 2098 7 1 .leaf)))) 784662410466595832894205391348316924869160045124819877957 2099 12 4 (.node (.node (.node (.node (.node .leaf 784662784611728613111425173882094359073078256479210831955 2100 0 5 .leaf) 784662784614583107475989546668036089187886522154528800836 2101 5 1 .leaf) 784663158756147768886795278779645394179466984566711910482 2102 2 8 (.node .leaf 784663158756147768886795278779645394179466984566739173445 2103 2 7 .leaf)) 784663158756147769227078010783821323644218892035892969539 2104 1 3 (.node (.node (.node .leaf 784663158756147769227078010783821323644218892035892969542 2105 1 2 .leaf) 784663158756147769227078010783821323644218892035892969547 2106 1 4 .leaf) 784663158756147769227078010783821323644218892035892969554 2107 1 3 (.node .leaf 784664281188691615939518926535694970488175109942418604115 2108 2 5 .leaf))) 784664281188691615939518926535694970488175109942435381331 2109 2 5 (.node (.node (.node (.node .leaf 784664281188691616705154049283517048208650199265206861906 2110 12 5 .leaf) 784664281188691616705154049283517048208650260837895766089 2111 12 6 .leaf) 784665777767795490476813248684324837373442004089363759187 2112 2 10 (.node .leaf 784665777767795490476813248684382865785113478140113453125 2113 34 2 .leaf)) 784665777773504483969897321650957321391606186818230288485 2114 34 1 (.node (.node (.node .leaf 784666151913285083127630637679596930830949954961591500883 2115 2 13 .leaf) 784666526056633803133472165093460009631231399784580382797 2116 2 14 .leaf) 784666526056633803899107247276540251725096174738271633485 2117 2 14 (.node .leaf 784666900200339337699678161030578774003077867409346920498 2118 12 3 .leaf))))
def ranks99 : Ranks := .node ranks97 374163687009154811218079575745977197954667414290482 2079 2 8 ranks98
def ranks100 : Ranks := .node ranks96 374157799612592538207661376736817479029803769135219 2038 9 2 ranks99
def ranks101 : Ranks := .node (.node (.node (.node (.node (.node .leaf 784666900206048331192762233997153229609570435349975400498 2120 12 2 .leaf) 784666900206048331192762233997153229609570435349975400626 2121 12 2 .leaf) 784667648491675333393217317515026980666170989322436608069 2122 12 5 (.node (.node .leaf 784668770922970338459613381731142880191749896392985804878 2123 2 11 .leaf) 784668770923862365885576618441253324190633098424937873473 2124 46 2 .leaf)) 784668770923862365885577470302050478660644413526570434625 2125 45 2 (.node (.node (.node .leaf 784668770925111208892753209290698562401556206528642416713 2126 44 2 .leaf) 784668770925111208892754061151495717000694787320821317697 2127 44 2 .leaf) 784669519212343869086106813529215894984573566933524283475 2128 2 6 (.node .leaf 784669519212343871808367046971557206713268295066110132339 2129 2 6 .leaf))) 784669519213771116778812773410274180954023062069907030099 2130 2 6 (.node (.node (.node (.node .leaf 784669519213771119501073006852615492682717790202492878963 2131 2 6 .leaf) 784670267499398123998436947188291249465209158912905838674 2132 34 4 .leaf) 784670267499398123998436947188484677596347499580858826834 2133 34 5 (.node .leaf 784670267499398123998436947188581391791043878430783307860 2134 37 2 .leaf)) 784670267505107117491521020154246735052059177453573111922 2135 34 3 (.node (.node (.node .leaf 784670267505107117491521020154440163183197518121526100082 2136 34 4 .leaf) 784670267505107117491521020154498191622539020321911996530 2137 34 4 .leaf) 784670267505107117491521020154536877082745991792097755252 2138 37 1 (.node .leaf 784670267505107117491521020155465332278230723661676937330 2139 34 4 .leaf)))) 784674383093717841143994090826826358559242642578246467685 2140 12 3 (.node (.node (.node (.node (.node .leaf 784674383093717841143994618169476053502673665206779904101 2141 12 4 .leaf) 784674383093717841143996646410436418669716059931908505701 2142 12 4 .leaf) 784674757238850621361215171434818426470067986556719726707 2143 0 4 (.node .leaf 784674757241705115725779544220760156289728347052684869732 2144 5 0 .leaf)) 784674757241705115725779544220760156409632183531796955236 2145 5 1 (.node (.node (.node .leaf 784674757241705115725779544220760156870800785374535745636 2146 5 1 .leaf) 784675131383269777136585276332369461576456714644220805234 2147 2 7 .leaf) 784675131383269777136585276332369461576456714644248068197 2148 2 6 (.node .leaf 784675131383269777476868008336545391041208622113334755395 2149 1 2 .leaf))) 784675131383269777476868008336545391041208622113334755398 2150 1 1 (.node (.node (.node (.node .leaf 784675131383269777476868008336545391041208622113334755403 2151 1 3 .leaf) 784675131383269777476868008336545391041208622113334755410 2152 1 2 .leaf) 784675131383269777476868008336545391041208622113334755427 2153 1 3 (.node .leaf 784675131383269777476868008336545391041208622113334755430 2154 1 2 .leaf)) 784675131383269777476868008336545391041208622113334755435 2155 1 4 (.node (.node (.node .leaf 784675131383269777476868008336545391041208622113334755442 2156 1 3 .leaf) 784676253815813624189308924088419037885164699282372034675 2157 2 5 .leaf) 784676253815813624189308924088419037885164699282388811891 2158 2 5 (.node .leaf 784676253815813624189308924088419037885164831223788339275 2159 2 5 .leaf))))
def ranks102 : Ranks := .node (.node (.node (.node (.node (.node .leaf 784676253815813624189308924088419037885164840019927498867 2161 2 5 .leaf) 784676253815813624189308924088419037885164840019944276083 2162 2 5 .leaf) 784676253815813624954944046836241115310492024163362930802 2163 12 4 (.node (.node .leaf 784676253815813624954944046836241115310492085736051834985 2164 12 5 .leaf) 784676253815813624954944046836241115430395860642475016306 2165 12 5 .leaf)) 784676253815813624954944046836241115430395922215163920489 2166 12 6 (.node (.node (.node .leaf 784676253815813624954944046836241115891564462485213806706 2167 12 5 .leaf) 784676253815813624954944046836241115891564524057902710889 2168 12 6 .leaf) 784677750394917498726603246237048904770431734166872653939 2169 2 10 (.node .leaf 784677750394917498726603246237106933182103208217622347877 2170 34 2 .leaf))) 784678124540407091377420635231702028208296994901650833523 2171 2 13 (.node (.node (.node (.node .leaf 784678498683755811383262162646184077028221129862089277549 2172 2 13 .leaf) 784678498683755812148897244829264319122085904815780528237 2173 2 13 .leaf) 784679621118797341643006016993536414356253586775863197797 2174 12 4 (.node .leaf 784679621118797341643006544336186109299684609404396634213 2175 12 5 .leaf)) 784679621118797341643008572577146474466727004129525235813 2176 12 5 (.node (.node (.node .leaf 784680743550092346709403379283866947293591721291141873774 2177 2 10 .leaf) 784680743550092346709403379283866947413495557770253959278 2178 2 11 .leaf) 784680743550092346709403379283866947874664159612992749678 2179 2 11 (.node .leaf 784680743550984371413106382552255049878570931244798836833 2180 46 1 .leaf)))) 784680743550984371413108532486647868330994594012484075617 2181 45 1 (.node (.node (.node (.node (.node .leaf 784680743552233217142541908769207995796490898802716180585 2182 44 1 .leaf) 784680743552233217142544058703600814378041827260880650337 2183 44 1 .leaf) 784681491839465877335896811081939962381563297011033178227 2184 2 6 (.node .leaf 784681491840893125028602770962998248351012792147415924851 2185 2 6 .leaf)) 784682240126520132248226944740396346842556198852965171314 2186 34 4 (.node (.node (.node .leaf 784682240126520132248226944740589774973694539520918159474 2187 34 5 .leaf) 1645555558801615193483724903603799615975877872048004389557764173 2188 36 2 .leaf) 1645555558804234203882604847574443531177385395406325478401769541 2189 12 3 (.node .leaf 1645555558813587820605733153393797168699944973889688550225477741 2190 36 1 .leaf))) 1645557128074055884443851526256695171275565710399871225352421445 2191 1 3 (.node (.node (.node (.node .leaf 1645557128074055884443851526256695171372279692958776790521741394 2192 2 8 .leaf) 1645557128074055884443851526256695171372279692958776790549004357 2193 2 7 .leaf) 1645557128074055884443851526256695171449651000754296900349329477 2194 32 2 (.node .leaf 1645557128080042193009486429773965220512554485028949941496578132 2195 2 3 .leaf)) 1645557128080042193009486429773965220512554512699061653989228616 2196 2 4 (.node (.node (.node .leaf 1645557128080042193009486429773965220512554549592527811194650693 2197 2 7 .leaf) 1645557128080042193009486429773965220512554595709414383730819155 2198 5 1 .leaf) 1645557128080042193009486429773965220512554614156127671137861717 2199 2 5 (.node .leaf 1645557128080042193009486429773965220512554660272957069092454468 2200 2 4 .leaf))))
def ranks103 : Ranks := .node ranks101 784676253815813624189308924088419037885164831223788339283 2160 2 5 ranks102
def ranks104 : Ranks := .node (.node (.node (.node (.node (.node .leaf 1645557912711772805816480492483290897694257545618049016491147347 2202 2 8 .leaf) 1645557912711772805816480492483290897694257545618106191068528723 2203 2 7 .leaf) 1645557912719255696162079952611442475894824135581873867004575794 2204 33 2 (.node (.node .leaf 1645559481985710075702075180418672670477394452396354269475766356 2205 1 1 .leaf) 1645559481997682702824083430208670223201461849386084346984661108 2206 1 0 .leaf)) 1645561051266381946024519796377912060430612654774534582541746258 2207 35 2 (.node (.node (.node .leaf 1645561051278354573146528046167909613154680051764264660050641010 2208 35 1 .leaf) 1645563405177287848444429858105194284391426718913121984192708684 2209 12 3 .leaf) 1645563405177287848444429858105194284662226056389943133116301391 2210 21 2 (.node .leaf 1645564189815004770887494934143667406684505375843163467350540370 2211 10 3 .leaf))) 1645564974451225118865241920381760631105696870120139894785310798 2212 2 11 (.node (.node (.node (.node .leaf 1645564974452721693508967417970079846118156192521032318943494227 2213 2 14 .leaf) 1645564974452721695114620561840490941927760296905963772558966873 2214 11 7 .leaf) 1645564974452721695114620561840490941985788893044715832706334803 2215 2 14 (.node .leaf 1645564974452721695114620561840490942082502875603621397856780370 2216 2 5 .leaf)) 1645564974452721695114620561840490942082502875603621397884043333 2217 2 4 (.node (.node (.node .leaf 1645565759087445463453274530526358505528494316938512230051217476 2218 0 6 .leaf) 1645566543727781397544057878828588239302962291187063515240202309 2219 36 2 .leaf) 1645566543728155541784807777681526659728786819444030303748751436 2220 2 4 (.node .leaf 1645566543728155541784807777681729483824823280808011166874861646 2221 6 1 .leaf)))) 1645566543739754024666063406358352350304688274272801514521100389 2222 36 1 (.node (.node (.node (.node (.node .leaf 1645569682278649091241255122724229753479888678720342966671507539 2223 2 11 .leaf) 1645569682282016392084099846377100411216980751457501962636886084 2224 11 4 .leaf) 1645572036194418871645420824549429242975716772184628574526898244 2225 40 2 (.node .leaf 1645572036206391498767429074338128720866180442624535890503925860 2226 40 1 .leaf)) 1645580667223148377727668440522133914567117201817833412048715877 2227 12 2 (.node (.node (.node .leaf 1645582236492970058288915119204385554665297516811379158999367781 2228 1 3 .leaf) 1645582236492970058288915119204385554762011499370284724168687730 2229 2 7 .leaf) 1645582236492970058288915119204385554762011499370284724195950693 2230 2 6 (.node .leaf 1645582236492970058288915119204385554839382807165804833996275813 2231 32 1 .leaf))) 1645582236498956366854550022721655603283316271797723757207879796 2232 2 3 (.node (.node (.node (.node .leaf 1645582236498956366854550022721655603283316271797767737693962356 2233 2 2 .leaf) 1645582236498956366854550022721655603283316299467879450186612840 2234 2 3 .leaf) 1645582236498956366854550022721655603283316336361345607392034917 2235 2 6 (.node .leaf 1645582236498956366854550022721655603283316382478232179928203379 2236 5 1 .leaf)) 1645582236498956366854550022721655603283316400924945467335245941 2237 2 4 (.node (.node (.node .leaf 1645582236498956366854550022721655603283316447041774865289838692 2238 2 3 .leaf) 1645582236498956366854550022721655603534772842277566625546764404 2239 2 4 .leaf) 1645582236498956366854550022721655603534772842277610606032846964 2240 2 3 (.node .leaf 1645582236498956366854550022721655603534772869947722318525497448 2241 2 4 .leaf))))
def ranks105 : Ranks := .node (.node (.node (.node (.node (.node .leaf 1645582236498956366854550022721655603534772971404788335674130549 2243 2 5 .leaf) 1645582236498956366854550022721655603534773017521617733628723300 2244 2 4 .leaf) 1645582236498956366854550022721655604501913497969269965311705204 2245 2 4 (.node .leaf 1645582236498956366854550022721655604501913497969313945797787764 2246 2 3 .leaf)) 1645582236498956366854550022721655604501913525639425658290438248 2247 2 4 (.node (.node (.node .leaf 1645582236498956366854550022721655604501913562532891815495860325 2248 2 7 .leaf) 1645582236498956366854550022721655604501913627096491675439071349 2249 2 5 .leaf) 1645582236498956366854550022721655604501913673213321073393664100 2250 2 4 (.node .leaf 1645583021130686979661544085430981281083989352029556950138093683 2251 2 8 .leaf))) 1645583021130686979661544085430981281083989352029614124715475059 2252 2 7 (.node (.node (.node (.node .leaf 1645583021138169870007143545557834785069921939938343997216391218 2253 33 1 .leaf) 1645584590404624249547138773366363053867126258807862203122712692 2254 1 1 .leaf) 1645588513596202022289493451052884667781158525324629917839655020 2255 12 2 (.node .leaf 1645588513596202022289493451052884668051957862801451066763247727 2256 21 1 .leaf)) 1645589298233918944732558527091357789455267162611981263547924594 2257 10 2 (.node (.node (.node .leaf 1645590082870139292710305513329451014495428381383742649079431278 2258 2 10 .leaf) 1645590082870139292710305513329451014495428501287579128191516782 2259 2 11 .leaf) 1645590082870139292710305513329451014495428962456180970930307182 2260 2 11 (.node .leaf 1645590082871635867354031010917770229507887998932540252590440563 2261 2 14 .leaf)))) 1645590082871635868959684154788181325317492103317471706205913209 2262 11 6 (.node (.node (.node (.node (.node .leaf 1645590082871635868959684154788181325375520699456223766353281139 2263 2 14 .leaf) 1645590082871635868959684154788181325472234682015129331503726706 2264 2 4 .leaf) 1645590082871635868959684154788181325472234682015129331530989669 2265 2 3 (.node .leaf 1645590867506359637298338123474048888918226123350020163698163812 2266 0 5 .leaf)) 1645591652147069715629868648370281675610810918858678783250006124 2267 2 3 (.node (.node (.node .leaf 1645591652147069715629868648370484499706847380222659646376116334 2268 6 0 .leaf) 1645591652147069715629869754287974168660817174826152936496693356 2269 2 4 .leaf) 1645591652147069715629874007817560680391610467008745833599336556 2270 2 4 (.node .leaf 1645592436783290062358778752514956534522467445401833359504572517 2271 49 1 .leaf))) 1645592436784786637716122396726285245849176126428338155228758127 2272 2 3 (.node (.node (.node (.node .leaf 1645592436784786637716122396726285248421770270568269039003500655 2273 2 3 .leaf) 1645592436784786637716123502643977738899182382395812308475445359 2274 2 4 .leaf) 1645592436784786637716123502643977741471776526535743192250187887 2275 2 4 (.node .leaf 1645592436784786637716127756173564250629975674578405205578088559 2276 2 4 .leaf)) 1645592436784786637716127756173564253202569818718336089352831087 2277 2 4 (.node (.node (.node .leaf 1645594790697563265086318715671920136250650465489160762868891763 2278 2 11 .leaf) 1645594790700930565929163439324790794606712262721104716931006564 2279 11 3 .leaf) 3450983422254762446173192115992280792033719102647884663796251007909971 2280 2 8 (.node .leaf 3450983422254762446173192115992280792033719102647884663853425585291347 2281 2 7 .leaf))))
def ranks106 : Ranks := .node ranks104 1645582236498956366854550022721655603534772906841188475730919525 2242 2 7 ranks105
def ranks107 : Ranks := .node ranks103 1645557128086028511565859776046692723999633107389601302861316197 2201 1 2 ranks106
def ranks108 : Ranks := .node ranks100 784666900200339337699678161030578774003077867409346920626 2119 12 3 ranks107
def ranks109 : Ranks := .node (.node (.node (.node (.node (.node .leaf 3450983422267316645154230485173330710128344663387432427709431822680147 2283 2 3 .leaf) 3450983422267316645154230485173330710128344721415862545786818770501715 2284 2 4 .leaf) 3450983422267316645154230485173330710128344798787031990849521043112018 2285 2 2 (.node (.node .leaf 3450983422267316645154230485173330710128344798787068884302484090126419 2286 2 7 .leaf) 3450983422267316645154230485173330710128344934186723787661600362594376 2287 2 5 .leaf)) 3450983422267316645154230485173330710128344934186751457782108975530067 2288 2 5 (.node (.node (.node .leaf 3450983422267316645154230485173330710128345030900752463361379072475219 2289 2 4 .leaf) 3450988358773926876428790898199159983813204421910153994566737864949829 2290 2 6 .leaf) 3450990004269853182000380214160476132345553198670938757707462220972121 2291 15 3 (.node .leaf 3450991649777549048087814280114881384837308057180054139593820026699852 2292 12 3 .leaf))) 3450999877300335660478479823812450071044574402566191620628804110647379 2293 2 11 (.node (.node (.node (.node .leaf 3450999877303474208353016740504909260170205070577885821758142666506323 2294 2 5 .leaf) 3450999877303474208353016740504909260170205070577885821815317243887699 2295 2 4 .leaf) 3450999877303474208353016740504909260454158727657599955076490928848964 2296 0 4 (.node .leaf 3451001522801754428571961588242413792586092913756234800276370832228435 2297 0 6 .leaf)) 3451003168312588850765093200580368997503544735970687039567301571510355 2298 2 4 (.node (.node (.node .leaf 3451003168312588850765093200580794350462195792993082234633949850632275 2299 6 1 .leaf) 3451003168312588850765093200580794351151797506746387010567401927344217 2300 13 5 .leaf) 3451004813814007621851739060157245638034269772262497148549812342227028 2301 2 17 (.node .leaf 3451009750333956677103347358010832409971823159655264362978025087696978 2302 45 1 .leaf)))) 3451009750333956677103347358010832409971823159655264363017607537754177 2303 46 1 (.node (.node (.node (.node (.node .leaf 3451009750333956677103347358010832409971823159655282809722098797248594 2304 45 1 .leaf) 3451009750333956677103347358010832409971823159655282809761681247305793 2305 46 1 .leaf) 3451009750337095234331499748987909675503805828401593379701890459107410 2306 11 5 (.node .leaf 3451009750337095240691954161029428881584513616880492475483428690591828 2307 11 2 .leaf)) 3451009750337095240691954161029428881584513616880520145595141183242312 2308 11 3 (.node (.node (.node .leaf 3451009750337095240691954161029428881584513616880557039061298388664389 2309 11 5 .leaf) 3451009750337095240691954161029428881584513616880621602661158331875413 2310 11 4 .leaf) 3451009750337095240691954161029428881584513616880667719490556286468164 2311 11 3 (.node .leaf 3451009750339449146733976991029855931619279625399880719532284771827785 2312 44 1 .leaf))) 3451009750339449146733976991029855931619279625399899166276358481379401 2313 44 1 (.node (.node (.node (.node .leaf 3451014686849197925508937573045484635562186516297760399369081242779717 2314 35 2 .leaf) 3451014686849197925508937573045909988520837689377089617628370953044037 2315 38 2 .leaf) 3451014686874306344423111418106355323019128183688152906884936661729381 2316 35 1 (.node .leaf 3451014686874306344423111418106780675977779356767482125144226371993701 2317 38 1 .leaf)) 3451016332342770321671208389930793032716088865038571419454970987020356 2318 34 4 (.node (.node (.node .leaf 3451016332342770321671208389931643738633391211197229855973550407548996 2319 34 5 .leaf) 3451016332342770321671208389932069090861875793287723753435772089270341 2320 36 2 .leaf) 3451016332367878740585382234991663721471104747062670834103450488275044 2321 34 3 (.node .leaf 3451016332367878740585382234992514427388407093221329270622029908803684 2322 34 4 .leaf))))
def ranks110 : Ranks := .node (.node (.node (.node (.node (.node .leaf 3451016332367878740585382234992939778318817460678116260951627508220005 2324 36 1 .leaf) 3451016332367878740585382234997023168750109527862218984170500837605476 2325 34 4 .leaf) 3451036078425705143680714920069715574940261939927391349859811810345075 2326 2 8 (.node (.node .leaf 3451036078425705143680714920069715574940261939927391349916986387726451 2327 2 7 .leaf) 3451036078438259342661753289250765491736813228004728301472337499258990 2328 2 4 .leaf)) 3451036078438259342661753289250765491736813286033232206640368542810227 2329 2 3 (.node (.node (.node .leaf 3451036078438259342661753289250765491736813344061662324717755490631795 2330 2 4 .leaf) 3451036078438259342661753289250765491736813421432831769780457763242098 2331 2 1 .leaf) 3451036078438259342661753289250765491736813421432868663233420810256499 2332 2 7 (.node .leaf 3451036078438259342661753289250765491736813556832523566592537082724456 2333 2 4 .leaf))) 3451036078438259342661753289250765491736813556832551236713045695660147 2334 2 5 (.node (.node (.node (.node .leaf 3451036078438259342661753289250765491736813653546552242292315792605299 2335 2 4 .leaf) 3451036078438259342661753289250765492264155877699671732494966032695406 2336 2 5 .leaf) 3451036078438259342661753289250765492264156071127775200803086296678514 2337 2 2 (.node .leaf 3451036078438259342661753289250765492264156206527466997615165616160872 2338 2 5 .leaf)) 3451036078438259342661753289250765494292396838064838774889691161297006 2339 2 5 (.node (.node (.node .leaf 3451036078438259342661753289250765494292397031492942243197811425280114 2340 2 2 .leaf) 3451036078438259342661753289250765494292397166892634040009890744762472 2341 2 5 .leaf) 3451041014944869573936313702276594765421673044555953773497674585079909 2342 2 5 (.node .leaf 3451042660440795879507897309247140091412571802806567645790477492420729 2343 15 2 .leaf)))) 3451044305948491745595337084192316167743850894459560825657380829134956 2344 12 2 (.node (.node (.node (.node (.node .leaf 3451052533471278357986002627889884853951116620875678664002227463520371 2345 2 11 .leaf) 3451052533474416905860539544582344043076747907857392507821703468941427 2346 2 5 .leaf) 3451052533474416905860539544582344043076747907857392507878878046322803 2347 2 4 (.node .leaf 3451052533474416905860539544582344043360701564937106641140051731284068 2348 0 3 .leaf)) 3451054178972697126079484392319848575492635751035741486339931634663539 2349 0 6 (.node (.node (.node .leaf 3451055824483531548272610295667032956570563340106315927650316842958963 2350 2 4 .leaf) 3451055824483531548272610295667458309529214397128711122716965122080883 2351 6 1 .leaf) 3451055824483531548272610295667458310218816110882015898650417198792825 2352 13 4 (.node .leaf 3451057469984950319359261864234680420940812609542003834613373144662132 2353 2 16 .leaf))) 3451062406504899362638243040082739663114255614178807606134461614260338 2354 45 1 (.node (.node (.node (.node .leaf 3451062406504899362638243040082739663114255614178807606174043997208673 2355 46 1 .leaf) 3451062406504899362638243040082739663114255614178826052878535323811954 2356 45 0 .leaf) 3451062406504899362638243040082739663114255614178826052918117706760289 2357 46 0 (.node .leaf 3451062406508037931839022553065344458410348665681100065765451261542514 2358 11 4 .leaf)) 3451062406508037938199476965106863664491055835189979518856852043464820 2359 11 1 (.node (.node (.node .leaf 3451062406508037938199476965106863664491055835190007188968564536115304 2360 11 2 .leaf) 3451062406508037938199476965106863664491055835190044082434721741537381 2361 11 4 .leaf) 3451062406508037938199476965106863664491055835190108646034581684748405 2362 11 3 (.node .leaf 3451062406508037938199476965106863664491055835190154762863979639341156 2363 11 2 .leaf))))
def ranks111 : Ranks := .node ranks109 3451016332367878740585382234992769639163597797068926801577603734962276 2323 34 4 ranks110
def ranks112 : Ranks := .node (.node (.node (.node (.node (.node .leaf 3451062406510391844241494086116519890686298229535232906454194400002153 2365 44 0 .leaf) 3451068988513713019178731194005505556687264194610371108659077643763812 2366 34 4 .leaf) 3451068988513713019178731194006356262604566540769029545177657064292452 2367 34 5 (.node (.node .leaf 7237229884197136273204437853450231375494007176460731411517799892325320622162 2368 12 3 .leaf) 7237229884197136273204437853450231375494007176460731411517799953898009526345 2369 12 4 .leaf)) 7237233335068664163144355063073009616726978568597830593089960467830281338949 2370 12 4 (.node (.node (.node .leaf 7237236785964874624582675278168056189922410630452792883539038239839741804628 2371 1 4 .leaf) 7237236785974747637018484770442220845407078145817687668904743726751751864403 2372 2 5 .leaf) 7237236785974747637018484770442220845407078510901002506195469846805810774085 2373 2 8 (.node .leaf 7237236785974747637018484770442220845407078551465821713674054754604454772819 2374 2 2 .leaf))) 7237236785974747637018484770442220845407078835419556164742100523615520817235 2375 2 5 (.node (.node (.node (.node .leaf 7237236786017530795525372785690860267357193536995011192730933708083741851764 2376 1 3 .leaf) 7237247138579458296756391689740164758373829279817723270013623446955263787091 2377 2 6 .leaf) 7237250589462504703689459801475577817597307614142014712505058171709921689669 2378 34 4 (.node .leaf 7237271294686735542995945763383351465379959884024591060988573104417462550611 2379 0 4 .leaf)) 7237281647299673712181618273486888004294844921439840420075536053126096224339 2380 2 17 (.node (.node (.node .leaf 7237281647322710772060909362812819141875914934341700313262101168018084069445 2381 12 5 .leaf) 7237291999932357913300639118547133210237228882917356969348091268713892806721 2382 45 1 .leaf) 7237291999932357913300639118547133210237228882917395654974318936847483404353 2383 45 2 (.node .leaf 7237291999938939944084135644668120123516495498194890815228003757027644932178 2384 11 5 .leaf)))) 7237291999938939948007324229282833135336393436252142425904027941372155658322 2385 11 5 (.node (.node (.node (.node (.node .leaf 7237291999938939958207613052711188837872725900668100527441118277300989722702 2386 11 4 .leaf) 7237291999938939958207613052711188837872725900668293955544586585421253705810 2387 11 1 .leaf) 7237291999938939958207613052711188837872725900668293955544586585421280968773 2388 11 2 (.node .leaf 7237291999938939958207613052711188837872725900668429355236383397500573188168 2389 11 4 .leaf)) 7237291999943876456971453314692244426707235504966610650728570073808182968385 2390 44 1 (.node (.node (.node .leaf 7237291999943876456971453314692244426707235504966649336354797741941773566017 2391 44 2 .leaf) 7237340312191341093167734317066831885336029300747123416914220651094351020146 2392 12 2 .leaf) 7237340312191341093167734317066831885336029300747123416914220712667039924329 2393 12 3 (.node .leaf 7237340312191341093167734317066831885336029300747123417034124487573463105650 2394 12 3 .leaf))) 7237340312191341093167734317066831885336029300747123417034124549146152009833 2395 12 4 (.node (.node (.node (.node .leaf 7237340312191341093167734317066831885336029300747123417495293089416201896050 2396 12 3 .leaf) 7237340312191341093167734317066831885336029300747123417495293150988890800233 2397 12 4 .leaf) 7237343763062868983107639554068197111812294768298072986991032110379272503397 2398 12 3 (.node .leaf 7237343763062868983107644417945646149057206550161196266780921525322775527525 2399 12 4 .leaf)) 7237343763062868983107663125166603984614559557327055035203573121259325620325 2400 12 4 (.node (.node (.node .leaf 7237347213968952456981781234058821352526841334736571966889315531245989396595 2401 2 5 .leaf) 7237347213968952456981781234058821352526841578125603267606490362689420787827 2402 2 4 .leaf) 7237347213968952456981781234058821352526841699819886804180041651300048306277 2403 2 7 (.node .leaf 7237347213968952456981781234058821352526841740384706011658626559098692305011 2404 2 2 .leaf))))
def ranks113 : Ranks := .node (.node (.node (.node (.node (.node .leaf 7237347213968952456981781234058821353632759270618653273862457836842667475059 2406 2 5 .leaf) 7237347213968952456981781234058821353632759392312936810436009125453294993509 2407 2 8 .leaf) 7237347213968952456981781234058821357886288857130384067154640429739770118259 2408 2 5 (.node .leaf 7237347213968952456981781234058821357886288978824667603728191718350397636709 2409 2 8 .leaf)) 7237357566573663116719688153356765265493592468736607567998195251449501319283 2410 2 6 (.node (.node (.node .leaf 7237361017456709523652756265086469336668505898904173574318828855112773927013 2411 34 3 .leaf) 7237361017456709523652756265088788614169153083710893289019184284709395890277 2412 34 4 .leaf) 7237361017456709523652756265097708912248565332967507576328243629311788056677 2413 34 4 (.node .leaf 7237381722680940362959242226999951975221982008310983066680141768365845774451 2414 0 4 .leaf))) 7237392075293878532144914737103488514136867045726232425767104717074479448179 2415 2 17 (.node (.node (.node (.node .leaf 7237392075300460543312461979668310182824803658109630696409859100476331524211 2416 2 3 .leaf) 7237392075300460543312461979668310182824809053230585267754191870445173604467 2417 2 3 .leaf) 7237392075300460543312461979670629460325450842916350411110214530072953487475 2418 2 4 (.node .leaf 7237392075300460543312461979670629460325456238037304982454547300041795567731 2419 2 4 .leaf)) 7237392075300460543312461979679549758404863092172964698419273874675345653875 2420 2 4 (.node (.node (.node .leaf 7237392075300460543312461979679549758404868487293919269763606644644187734131 2421 2 4 .leaf) 7237392075316915592024193853808006636961231134041942707163172810567075233893 2422 12 4 .leaf) 7237392075316915592024198717685455674206142915905065986953062225510578258021 2423 12 5 (.node .leaf 7237392075316915592024217424906413509763495923070924755375713821447128350821 2424 12 5 .leaf)))) 7237402427926562708155516667995597649979387389786314728820098443269296357473 2425 45 1 (.node (.node (.node (.node (.node .leaf 7237402427926562708155516667995597649979387389786353414446326111402886955105 2426 45 1 .leaf) 7237402427933144764047432108284720633358517622481282820919572420976028156018 2427 11 4 .leaf) 7237402427933144767970620692899433645178415560538534431595596605320538882162 2428 11 4 (.node .leaf 7237402427933144778170909516327789347714746726880277899425779808625290641518 2429 11 3 .leaf)) 7237402427933144778170909516327789347714746726880471327529248116745554624626 2430 11 0 (.node (.node (.node .leaf 7237402427933144778170909516327789347714746726880471327529248116745581887589 2431 11 1 .leaf) 7237402427933144778170909516327789347714746726880606727221044928824874106984 2432 11 3 .leaf) 7237402427938081276934737805687431921792551704666234074609999026219724570721 2433 44 1 (.node .leaf 7237402427938081276934737805687431921792551704666272760236226694353315168353 2434 44 1 .leaf))) 7237416231406092295194979555118364007748338075189261332271585011533789266021 2435 2 7 (.node (.node (.node (.node .leaf 7237423133150793538046348530242105404826084529830388140806090147389962715186 2436 2 4 .leaf) 15177585600180513956468589373302444330387145002870157863901291507612167772416507975 2437 2 6 .leaf) 15177585600180513956468589373302444330387145513293059207872841980168499676493906003 2438 2 8 (.node .leaf 15177592837144680828750606955750913206281430888595324383527142758426219946117693523 2439 49 2 .leaf)) 15177643496183722152940608057110198687324598686210563145116570030633615521185005651 2440 21 2 (.node (.node (.node .leaf 15177643496183722152940608057116184994998206333904887519134670769100471006866178130 2441 34 1 .leaf) 15177657970194876817465028157091563907258202232592601526004143906818740608340852818 2442 30 2 .leaf) 15177665207172847179149632660600336075090637111377832511300635978231786214759858245 2443 10 3 (.node .leaf 15177701392242144262594261928739357506115425026267982132620702907047573516443451457 2444 45 2 .leaf))))
def ranks114 : Ranks := .node ranks112 7237347213968952456981781234058821352526842024338440462726672328109758349427 2405 2 5 ranks113
def ranks115 : Ranks := .node ranks111 3451062406510391844241494086116519890686298229535214459710120690450537 2364 44 1 ranks114
def ranks116 : Ranks := .node (.node (.node (.node (.node (.node .leaf 15177730340223043167864042092395810863385605456240448495946471246182369530008830041 2446 13 5 .leaf) 15177817184469416583064256478568925317094370614037773907188232236550867001528025191 2447 2 5 .leaf) 15177817184469416583064256478568925317094371124460675251159782709107198905605423219 2448 2 8 (.node (.node .leaf 15177817184469416583064256478568925319413648114684958713907946936906296598149988455 2449 2 6 .leaf) 15177817184469416583064256478568925328333946194097207970522234245965641200542154855 2450 2 6 .leaf)) 15177824421433583455346274061017394198697647270586779951047227365162899720760197235 2451 49 1 (.node (.node (.node .leaf 15177875080472624779536275162376679679740815068202018712017684617727605158377947251 2452 21 1 .leaf) 15177875080472624779536275162382665987414422715896343086035785356194460644059119730 2453 34 0 .leaf) 15177875080472624779536275162382665987414422715896343086287241926674303512398004338 2454 34 1 (.node .leaf 15177875080472624779536275162382665987414422715896343087254382582366006852162945138 2455 34 1 .leaf))) 15177889554483779444060695262346072278261403857878132506755646703415708846141735026 2456 30 1 (.node (.node (.node (.node .leaf 15177896791461749805745299765866817067506853493369288078201750565325775851952799845 2457 10 2 .leaf) 15177932976531046836533758091320303602849572223265230635812941697180787183710109793 2458 45 1 .leaf) 15177932976544850437830679233985856086138676527770793640651410267944265573499666533 2459 11 5 (.node .leaf 15177961924511945794459709197662291850092831067408064539233411975121068759120347257 2460 13 4 .leaf)) 31829703996589765204836015141399967732360061917059157304596321287771872868258824532787283 2461 2 6 (.node (.node (.node .leaf 31829749527826793760731714750873790847864155032682858788747970743430808310159266629550155 2462 2 6 .leaf) 31829825413308685280483702068184767397520156783983854920907504937483785387849827290710085 2463 21 1 .leaf) 31829825413308685280483702068196536956913555074464887422247925262714721801248147377225793 2464 34 2 (.node .leaf 31829855767510126307500418729740903936838513261297829129179295643247232225672661640937554 2465 30 3 .leaf)))) 31829946830172345464227128155768094916550250448631690799681686134646216214893538177974343 2466 11 5 (.node (.node (.node (.node (.node .leaf 31830007538459435425572436284681187490981093017045727521364066514113934639986161831903314 2467 35 2 .leaf) 31830007538459435425572436284681187490981093017045727521364066514114072990505142000287828 2468 0 2 .leaf) 31830007538691019714475062880323184350520538710206766355126802749563955514811743702351988 2469 0 1 (.node .leaf 31830007538691019714475062880323184350520538710206766355126802749564112312197942886793330 2470 35 1 .leaf)) 31830189664044405926006371602543778866595093521970545625007615611347123833988501085356147 2471 2 6 (.node (.node (.node .leaf 31830235195281434481902071212017601982099186637594247109159265067006059275748205626654795 2472 2 5 .leaf) 31830235195281434481902071212017601982099186637594247109159265067006059275748205693763691 2473 2 6 .leaf) 31830311080763326001654058529328578543727809801909999945945311196037119943468279153033317 2474 21 0 (.node .leaf 31830311080763326001654058529328578543727809801909999946472653845732063374490907686469733 2475 21 1 .leaf))) 31830311080763326001654058529328578543727809801909999948500894806097230416885632815071333 2476 21 1 (.node (.node (.node (.node .leaf 31830311080763326001654058529340348103121208092391032448583805116931743621309085872291937 2477 34 1 .leaf) 31830311080763326001654058529340348103121208092391032448583805368388314101151954211176545 2478 34 2 .leaf) 31830311080763326001654058529340348103121208092391032448583806335528969792855293976117345 2479 34 2 (.node .leaf 31830341434964767028670775190884715071073544866209217449590589347852463548712200743944306 2480 30 2 .leaf)) 31830432497626986185397484616911906062757897757567065002178042374689379879664068591616103 2481 11 4 (.node (.node (.node .leaf 66751822881781016188906037053224472224180008455100922674540384340527406509267126330694366658643 2482 2 6 .leaf) 66751918367857583932476802704851707154907496839836758442225076236194953963545429641268421460046 2483 2 6 .leaf) 66752077511111109891741209976516517037182245508271820938651424676753748874201343755841043431493 2484 10 4 (.node .leaf 66752236654835125792416324105908019471134225073213590086954028948614782997140789718734373650508 2485 2 3 .leaf))))
def ranks117 : Ranks := .node (.node (.node (.node (.node (.node .leaf 66752841400254850886589892446425138031963273455404050513467571053801891222253901067087912108147 2487 2 6 .leaf) 66752936886331418630160658098052372987799168781686609333773161706932596633529777201243312095342 2488 2 5 .leaf) 66753096029584944589425065369717182870073917450121671830199510147491391544185691315815934066789 2489 10 3 (.node (.node .leaf 66753255173308960490100179499108685304025897015063440978502114419352425667125137278709264285804 2490 2 2 .leaf) 66753255173308960490100179499108685304025897015063440979608032111845475673381104752862510973036 2491 2 3 .leaf)) 66753255173308960490100179499108685304025897015063440983861561698357206466673287345759613616236 2492 2 3 (.node (.node (.node .leaf 139988518611674661973083572301080245315524346400312307522028750480235644362573046016472236667036500050 2493 2 3 .leaf) 139988919108989267859161591746085167363328566812657337640629203078888720094557224863045352601778389075 2494 2 6 .leaf) 139989519855088491163611756746696996959876085224451634324812679657391001657336129641570509653144502348 2495 2 4 (.node .leaf 139989586605065307967968720225305355701050547013101270200535725374479400585947231596987166139755790418 2496 11 4 .leaf))) 139989586605065307967968720225305355701050547013101270200535725374479400585947231596987166139783053381 2497 11 5 (.node (.node (.node (.node .leaf 139989586605065307967968720225305355701050547013103889212183446964497695009277047200247874383578660946 2498 11 2 .leaf) 139989586605065307967968720225305355701050547013103889212183446964497695009277047200247874383605923909 2499 11 3 .leaf) 139989586605160793725817478931353214849928082380740026878035815717645389392019801440223229169910153299 2500 2 3 (.node .leaf 139989720104064080097681455899696677673940554711529521116301755417043539379836035662885330884856119412 2501 2 12 .leaf)) 139989720104318709594723266660480233384991726981660954665509997448373056936005333325355747973129044084 2502 2 10 (.node (.node (.node .leaf 139990654599729101357000665006641808015648636162228012675690577950352656528001656648092123431004274802 2503 2 2 .leaf) 139990654599729101357000665006641808037040195407403691223705177323598213092777222901328661654536192114 2504 2 3 .leaf) 139990654599729101357000665006641808119315423273463993331453636451465738341914016183007654821966643314 2505 2 3 (.node .leaf 139991055097043707243078684451646730116109002408851636137541053620017108895200239317141814447370666099 2506 2 6 .leaf)))) 139991655843142930547528849452258559712656520820645932827433518247084294614704580266468092590122074220 2507 2 3 (.node (.node (.node (.node (.node .leaf 139991655843142930547528849452258559712656520820645932827433519353001987107754586522435566743368761452 2508 2 4 .leaf) 139991655843142930547528849452258559712656520820645932827433523606531573619485379814618159640471404652 2509 2 4 .leaf) 139991722593119747351885812930866918453830957500888627156433511343273936080157725519459830674741002354 2510 11 3 (.node .leaf 139991722593119747351885812930866918453830957500888627156433511343273936080157725519459830674768265317 2511 11 4 .leaf)) 139991722593119747351885812930866918453830957500891246168081232933292230503487541122720538918563872882 2512 11 1 (.node (.node (.node .leaf 139991722593119747351885812930866918453830957500891246168081232933292230503487541122720538918591135845 2513 11 2 .leaf) 139991722593215233109734571636914777602708517976934325374947666258773778192662815894319691015502430323 2514 2 3 .leaf) 293576921815284469863821288195987819322015973647872474609090162018113253889024724741179262243130285710377044 2515 10 3 (.node .leaf 293577201783510740706176159818355038623942514102107756344437638127127142046258788599536784070748930152857683 2516 2 3 .leaf))) 293579021575713263207607198459570330400838799646826663641947316068854248064426850681652189582778822522044488 2517 12 6 (.node (.node (.node (.node .leaf 293579301543138539420750722884849100568398051880629193827549560768856853907685778950078877460111299388112979 2518 2 4 .leaf) 293579441527985920735641537557939577319169556769618570365876976167911938235717959470540628869098065008525394 2519 11 4 .leaf) 293579441527985920735641537557939577319169556769618570365876976167911938235717959470540628869098065035788357 2520 11 5 (.node .leaf 293579441527985920735641537557939577319169556769622493554461590880923758133656016722151304893282409519251538 2521 11 4 .leaf)) 293579441527985920735641537557939577319169556769622493554461590880923758133656016722151304893282409546514501 2522 11 5 (.node (.node (.node .leaf 293581401306904813526681786997641661772134969719302540102458464617156493424995409320258336249869082598310004 2523 10 2 .leaf) 293581681275131084369036658620008880963633568624888801238849846929737974343011730242859692837577476909564019 2524 2 3 .leaf) 293583501067333606870467697261224172740529854169607708536359524871465080361179791706005078706917231829188712 2525 12 5 (.node .leaf 293583501067333606870467697261224172740529854169607708536359524871465080361179791957461649186760100168073320 2526 12 6 .leaf))))
def ranks118 : Ranks := .node ranks116 66752841400254850886589892446425138031963273455404050513467571053801891222253900926350356643955 2486 2 6 ranks117
def ranks119 : Ranks := .node (.node (.node (.node (.node (.node .leaf 293583781034758883083611221686502943018517047952059259320917857658909322619816939914984093311559688194621555 2528 2 4 .leaf) 293583921019606264398502036359593419769288500184902801580651929807941335936472485221042022243971372190531698 2529 11 3 .leaf) 293583921019606264398502036359593419769288500184902801580651929807941335936472485221042022243971372217794661 2530 11 4 (.node (.node .leaf 293583921019606264398502036359593419769288500184906724769236544520953155834410542472652698268155716701257842 2531 11 3 .leaf) 293583921019606264398502036359593419769288500184906724769236544520953155834410542472652698268155716728520805 2532 11 4 .leaf)) 615678364415596082837529421935620566968368604762792716424151778479775224743564916183129798722118566418614061105234 2533 30 1 (.node (.node (.node .leaf 615678657984258833978498519814531075318926178713682549256612303246037893524685025569487766269503033095024571056212 2534 2 12 .leaf) 615687758590406669790784642718506525970320557611984421133700089039342539608148204663002082985395615210823684718706 2535 30 0 .leaf) 615688052159069420931753740596931367097821699295144388489454746051566019694261985093633866012155495527469734166644 2536 2 11 (.node .leaf 615688052159069420931753740597128669407188374903909646339366509690521889138853218013761003210019602993935888154740 2537 2 12 .leaf))) 615688052159069420931753740597887524443214050322237561146719446763429079310357960014249992432573862480344172724340 2538 2 12 (.node (.node (.node (.node .leaf 1291171113290896156314890502271130543258848156215500270834342790558923176281349462892936740302929170298650724900435656786 2539 30 2 .leaf) 1291171728949004382195676127826083473667236673541756785538603004977034860481080250743102408007620824861296969239677108307 2540 2 12 .leaf) 1291176038541377138221897647405002583449174547107029461901440563975226475490627384969498260240983238301540260790245785684 2541 2 10 (.node .leaf 1291176038544899950136281480842369371499597032398366744251651546193839737924539649288433366354019371131318195514666647636 2542 2 3 .leaf)) 1291190814303388528365083595046401397951709698037088352749381474253935858709550076081530927308340876033519920424054423666 2543 30 1 (.node (.node (.node .leaf 1291191429961496754245869220600335810371930972320210644609436999591533781333860910563084449375123921756424207947045798003 2544 2 12 .leaf) 1291195739553869510272090740180273437656368865872185276086613770964371403879639303151763491520210423411823096549404049524 2545 2 9 .leaf) 1291195739553869510272090740180273437853671175238860884851871620876135042835508747742996411647347621275930563015558037620 2546 2 10 (.node .leaf 1291195739553869510272090740180273438612526211264536303179786428229072115742698919247738412136336843830190049423842607220 2547 2 10 .leaf)))) 1291195739557392322186474573617640226192458574219954826114034084054585799625194263391898261786133140956409856810521985140 2548 2 2 (.node (.node (.node (.node (.node .leaf 1291195739557392322186474573617640226192458574219954826135425643299761478173208862765143818351160163780126237902392787060 2549 2 3 .leaf) 1291195739557392322186474573617640226192458574219954826217700871165821780280957321893011343601264097717496934409588179060 2550 2 3 .leaf) 2707770462461318971160097000001636159688400039861024761479232410720425414050629896392941452702432492687035875200561557517893716 2551 34 3 (.node .leaf 2707770462481019983652469050194728934959254732722334998888839693368261967105267570190862858033212803120274485398762654269440116 2552 34 2 .leaf)) 2707770462481019983652469050194728934959254732722429079961345012777043618530587129115993639895753636330013115165611952026157172 2553 34 3 (.node (.node (.node .leaf 2707770462481019983652469050194728934959254732722790930240211625887742277858739278828035108597833764059777075807340020321222772 2554 34 3 .leaf) 2707776918075548033471324805556351500042890828486812508176062908581047113296690738977895140416046201631076652320586332446392409 2555 15 3 .leaf) 2707792411579126148176329095050695977885603299814601050085529881621774153528120201643553215460898480170551760996785529938772051 2556 2 10 (.node .leaf 2707792411586514020228202980111536612179122915688299614440839543403503394067924174584536611116064432206786216359974189423132755 2557 2 3 .leaf))) 2707792411586514020228202980111536612179122915688299614440839543403503394067924174584536611116064432342185815923114278643564626 2558 2 2 (.node (.node (.node (.node .leaf 2707811778479069374189903544901480983149244008015020266465044983917966617467219839649976932358865285325577459849514218229334132 2559 34 3 .leaf) 2707811778479069374189903544901480983149244008015114347537550303326748268892539398575107714221406118535316089616363515986051188 2560 34 4 .leaf) 2707811778479069374189903544901480983149244008015476197816416916437446928220691548287149182923486246265080050258091584281116788 2561 34 4 (.node .leaf 2707818234093298436501126870966711967895313681756478460451793870878440989384228252363444461634228391461632532227277868121456761 2562 15 2 .leaf)) 2707833727596876551206135639950540800327929279801585096115594243005473418388993323883327109768592329878951630574775801267355763 2563 2 10 (.node (.node (.node .leaf 2707833727604264423258009525011381435639966883842526703494698807443242718855575399860846223501312688823016844029899802180321395 2564 2 3 .leaf) 2707833727604264423258009525011381435639966883842526703494698807443242718855575399860846223501312688958416443593039891400753266 2565 2 1 .leaf) 2707833727604264423258009525011381435639966883842526703539560158697381383473901312965646888942772239927218899632618927388885106 2566 2 2 (.node .leaf 2707833727604264423258009525011381435639966883842526703712103817367145478159770209522572525256078205191843730554076758112469106 2567 2 2 .leaf))))
def ranks120 : Ranks := .node (.node (.node (.node (.node (.node .leaf 5678652271543481050549616336146869229304671980881548913023835530127743949876335318578310123075276756415279668234790955685908842545235 2569 2 2 .leaf) 5678736209808123315902279670556648940437271732202137839804973982593334745997864781072620336720383144670084560892903000740422655934578 2570 2 2 .leaf) 5678736209808123315902279670556648940437271732202137839804974027454686000136529399398533441521048586129635529695359040319458644066418 2571 2 3 (.node .leaf 5678736209808123315902279670556648940437271732202137839804974199998344669900624085267429998446684899435600794320189961777289367650418 2572 2 3 .leaf)) 5678738917512738343764381191396668600515227830384122561287314593427211354333407660968973379308224908274520961514030794330872513298547 2573 2 2 (.node (.node (.node .leaf 11908962897976968492021794156321978298217600492093533425918489361854678427878114347029754841559181381284873925480591358916736102053170905177 2574 12 5 .leaf) 11908991290103805557211167069950390187802945666835156442933962161514718689949481314802833945967890278771615127173978468024456825124434214995 2575 2 3 .leaf) 11909144607744688363001724702038805549150560112989554758007208229467715361747281854890620204006263759773985186317241299745150469774967308409 2576 12 4 (.node .leaf 11909144607744688363001724702038805549150560112989554758007208229467715361768673414135795882556597636647877927688736580698742437595121188985 2577 12 5 .leaf))) 11909144607744688363001724702038805549150560112989554758007208229467715361850948642001856184673266393855157702194487661289480775364943806585 2578 12 5 (.node (.node (.node (.node .leaf 11909172999871525428191097615667217438735905287731177775022680797543577149238914121356007884393824952611157177045673313808778853738512121971 2579 2 3 .leaf) 24974893450892536540680350163493807393639518955399651076430451093801121942890482798527329621163915450878521805770392096854821943380957154053718081 2580 12 6 .leaf) 24975274523895329803545653467304943096588072610791499649454550929568976438049946874230413689050425448909948944311969576795848214605071769051070561 2581 12 5 (.node .leaf 24975274523895329803545653467304943096588072610791499649454550929568976438049946874230413689055289326358986189223751439919128004494486712554094689 2582 12 6 .leaf)) 24975274523895329803545653467304943096588072610791499649454550929568976438049946874230413689073996547316821746576758605777896427146082649104187489 2583 12 6 (.node (.node (.node .leaf 109841109626914857315980747824089366342061309086431640327832422012870857417989297303206217147639269217672949216757932572325235340103457744254945091130358759506 2584 2 4 .leaf) 109842785603705268150572091381710696266958105717133804055182261921244290919992919516211336844700385381219284304627607005502084440706687009711532776762128728178 2585 2 3 .leaf) 109842785603705268150572091381710696266958105717133804057002054524263756841070841369173197820695613906967612730281862749408410892605343344086732278268841427058 2586 2 4 (.node .leaf 109842785603705268150572091381710696266958105717133804064001256843569394999062848495949586189908031313691952828952077149048128015292483091683653437910044115058 2587 2 4 .leaf)))) 230351525673634893188783456768864696381649115146567661367829847074995382803441026717209144013437171583309893482998299864573207903049504303455924497515982737027104840 2588 12 5 (.node (.node (.node (.node (.node .leaf 230352624041627133659604302944710069547448247072821060768310382315425327833621584759958135728777642647013719440184970056716078802515659564755327484036050059224154194 2589 12 4 .leaf) 230353392898755571463804827570420161601728024956600140032044341230855268942818617083824682231835171535963579813837862776898661967577304175813337052266358989949763666 2590 4 1 .leaf) 230353502736303746849923657260784662802986558473228287376794419489136144375851090818013524703605988718381260795822331809917011943968646615279746607754214133215526995 2591 2 4 (.node .leaf 230355040451712856851368362093417383676306281994237965432969018538520545619034927048457256796368285467923417205194363341458903348077767763347768255971330252917964904 2592 12 4 .leaf)) 230355040451712856851368362093417383676306281994237965436785400235528024614355333018239929465853769609899436995093711170198743013889006484227735698826422263683743848 2593 12 5 (.node (.node (.node .leaf 230355040451712856851368362093417383676306281994237965451463791377864482288664586748173285886951785540576436187014279742275049420855309256842995094422929997398278248 2594 12 5 .leaf) 230356138819705097322189208269262756842105413920491364833449553778950490649215485091206248511819184420519746348701396278439192812947924609373319746742132472989876338 2595 12 3 .leaf) 230356138819705097322189208269262756842105413920491364833449553778950490649215485091206248511819184441911305593877074826453792186193481174148885999978670696521793650 2596 12 4 (.node .leaf 230356138819705097322189208269262756842105413920491364833449553778950490649215485091206248511819184524186533459937376934202251314061006423285679281657663863952244850 2597 12 4 .leaf))) 230356907676833535126389732894972848896385191804270444106577678545986280314362018687345581987490887261811891735884383084772410150884260633964234546756529672628994162 2598 4 0 (.node (.node (.node (.node .leaf 230356907676833535126389732894972848896385191804270444106577680365778883333827939765267434949351863257040417484212808739028154057210712532620568921956031179341693042 2599 4 1 .leaf) 230356907676833535126389732894972848896385191804270444106577687364981202639466097757274561725740232469457824208552907409242553696927835219760316518877190820544381042 2600 4 1 .leaf) 230357017514381710512508562585337350097643725320898591441933590952661307191444991149261637486537102602994784518018395286802707388996910075790560385852251786555949171 2601 2 4 (.node .leaf 483086078624411044206461221748961782743387130993783896868481854300970588973969948454577099991857593656989093333749701598298582742628678606915291425834499288491126771679315 2602 4 1 .leaf)) 483093449648286801857378481120158100008751997762709370398997591718072219733824936214204161956230489202883332377693405754996629492747228957039362408199549716013240364826739 2603 4 1 (.node (.node (.node .leaf 19596243377711873661795513118028071119815512482874586210448245330802299258329335814101675993958702058060588939603665901829815777659983974064593195281799310927906628623880376337930990849108415354129875009 2604 12 5 .leaf) 19596542381962766487267751085084987579273783000663400366258709695351279579490444680199978867574044130858633720297611656481688543425907054879604926945062968603668532393367585618139941322360143330548908129 2605 12 4 .leaf) 19596542381962766487267751085084987579273783000663400366258709695351279579490444680199978867577860512555641199292932062451471216095392539021580946734967180309857409304090606201891731984624807416478826593 2606 12 5 (.node .leaf 19596542381962766487267751085084987579273783000663400366258709695351279579490444680199978867592538903697977656967241316181404572516490554952257945926906456102891551268409916139398619147181207746978512993 2607 12 5 .leaf))))
def ranks121 : Ranks := .node ranks119 5678649563838866022687514815306849569226715882699564191309910851247176499342671067620675061210580005060012401186932786953190243303506 2568 2 3 ranks120
def ranks122 : Ranks := .node ranks118 293583501067333606870467697261224172740529854169607708536359524871465080361179792924602304878463439933014120 2527 12 6 ranks121
def ranks123 : Ranks := .node ranks115 15177701392255947811235012128719375093722462868038273440639033368204445253002854469 2445 11 6 ranks122
def ranks124 : Ranks := .node ranks108 3450983422267316645154230485173330710128344605358928522541400779128910 2282 2 5 ranks123
def ranks125 : Ranks := .node ranks93 178412937379403579128001577148033417663742021 1956 1 2 ranks124
def ranks126 : Ranks := .node ranks62 40566269919347566697316073078963 1304 3 1 ranks125

/-- the ranks of the 2608 names of the shipped data -/
def shippedRanks : Ranks := ranks126

end Unyts

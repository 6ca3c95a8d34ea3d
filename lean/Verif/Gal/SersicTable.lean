import Mathlib.Data.Rat.Defs
import Mathlib.Data.Rat.Cast.Defs

/-! The table of Gaussian mixtures fitted to Sersic profiles, tractor/sersic.py 40-241, copied number by number (commented-out lines
left out). -/

namespace Verif.Gal.Sersic

/-- One entry `(lo, hi, grid)` of `fits`, sersic.py 40-212: a range of indices, and for some indices the amplitudes and the variances of
the components. -/
structure Range (R : Type) where
  lo : R
  hi : R
  grid : List (R × List R × List R)

/-- Range 0 of the table. -/
def range0 : Range ℚ := ⟨29 / 100, 21 / 50, [
    (29 / 100, [148667 / 5000, 50313 / 5000, -321111 / 10000], [400917 / 1000000, 223733 / 1000000, 29063 / 100000]),
    (3 / 10, [35159 / 1250, 897219 / 100000, -293501 / 10000], [410641 / 1000000, 113579 / 500000, 1849 / 6250]),
    (31 / 100, [132903 / 5000, 794611 / 100000, -2137 / 80], [105221 / 250000, 57699 / 250000, 75323 / 250000]),
    (8 / 25, [50191 / 2000, 349237 / 50000, -121003 / 5000], [431669 / 1000000, 117339 / 500000, 307003 / 1000000]),
    (33 / 100, [59183 / 2500, 304381 / 50000, -54539 / 2500], [22151 / 50000, 119421 / 500000, 31299 / 100000]),
    (17 / 50, [55787 / 2500, 525393 / 100000, -24447 / 1250], [227479 / 500000, 30417 / 125000, 12771 / 40000]),
    (7 / 20, [210211 / 10000, 1793 / 400, -87131 / 5000], [29219 / 62500, 248227 / 1000000, 81471 / 250000]),
    (9 / 25, [49477 / 2500, 23557 / 6250, -1927 / 125], [120171 / 250000, 126791 / 500000, 166427 / 500000]),
    (37 / 100, [46557 / 2500, 155601 / 50000, -27049 / 2000], [247261 / 500000, 64879 / 250000, 13609 / 40000]),
    (19 / 50, [87573 / 5000, 62641 / 25000, -14679 / 1250], [254523 / 500000, 66539 / 250000, 69611 / 200000]),
    (39 / 100, [41313 / 2500, 38763 / 25000, -973179 / 100000], [65537 / 125000, 26729 / 100000, 89941 / 250000]),
    (2 / 5, [77971 / 5000, 209057 / 250000, -801953 / 100000], [270097 / 500000, 267179 / 1000000, 372381 / 1000000]),
    (41 / 100, [147227 / 10000, 344169 / 1000000, -131783 / 20000], [556667 / 1000000, 53117 / 200000, 192829 / 500000]),
    (21 / 50, [70293 / 5000, 0, -551399 / 100000], [71623 / 125000, 201543 / 500000, 201543 / 500000])]⟩

/-- Range 1 of the table. -/
def range1 : Range ℚ := ⟨21 / 50, 51 / 100, [
    (41 / 100, [39357 / 2500, -363099 / 50000], [27703 / 50000, 204299 / 500000]),
    (21 / 50, [70293 / 5000, -551399 / 100000], [71623 / 125000, 201543 / 500000]),
    (43 / 100, [125707 / 10000, -396071 / 100000], [594559 / 1000000, 393181 / 1000000]),
    (11 / 25, [28613 / 2500, -55379 / 20000], [616783 / 1000000, 190287 / 500000]),
    (9 / 20, [106629 / 10000, -48009 / 25000], [637897 / 1000000, 183793 / 500000]),
    (23 / 50, [101197 / 10000, -131131 / 100000], [20543 / 31250, 177641 / 500000]),
    (47 / 100, [97311 / 10000, -857421 / 1000000], [135059 / 200000, 343829 / 1000000]),
    (12 / 25, [472217 / 50000, -253083 / 500000], [138369 / 200000, 333043 / 1000000]),
    (49 / 100, [184547 / 20000, -112727 / 500000], [70721 / 100000, 322121 / 1000000]),
    (1 / 2, [906467 / 100000, 0], [360671 / 500000, 158293 / 500000]),
    (51 / 100, [446399 / 50000, 99483 / 500000], [735017 / 1000000, 155573 / 500000]),
    (13 / 25, [882471 / 100000, 363539 / 1000000], [186909 / 250000, 301751 / 1000000])]⟩

/-- Range 2 of the table. -/
def range2 : Range ℚ := ⟨51 / 100, 57 / 100, [
    (51 / 100, [892797 / 100000, 198981 / 1000000, 0], [367509 / 500000, 155577 / 500000, 414387 / 10000000]),
    (103 / 200, [218307 / 25000, 53059 / 125000, 330697 / 100000000], [373349 / 500000, 73239 / 200000, 414387 / 10000000]),
    (13 / 25, [26461 / 3125, 357391 / 500000, 21473 / 2000000], [11878 / 15625, 406511 / 1000000, 346369 / 5000000]),
    (53 / 100, [157143 / 20000, 13651 / 10000, 180047 / 5000000], [197421 / 250000, 91377 / 200000, 2051 / 20000]),
    (27 / 50, [776883 / 100000, 150907 / 100000, 21529 / 500000], [805917 / 1000000, 109427 / 250000, 476401 / 5000000]),
    (11 / 20, [153089 / 20000, 41929 / 25000, 516891 / 10000000], [822863 / 1000000, 427311 / 1000000, 912697 / 10000000]),
    (14 / 25, [150867 / 20000, 184057 / 100000, 613179 / 10000000], [839849 / 1000000, 210207 / 500000, 17737 / 200000]),
    (57 / 100, [93057 / 12500, 99537 / 50000, 357113 / 5000000], [428283 / 500000, 414979 / 1000000, 866439 / 10000000])]⟩

/-- Range 3 of the table. -/
def range3 : Range ℚ := ⟨57 / 100, 31 / 50, [
    (57 / 100, [741719 / 100000, 40307 / 20000, 742881 / 10000000, 0], [428283 / 500000, 414979 / 1000000, 866439 / 10000000, 15899 / 10000000]),
    (23 / 40, [4562 / 625, 1344 / 625, 880109 / 10000000, 13777 / 31250000], [868967 / 1000000, 422919 / 1000000, 188509 / 2000000, 412021 / 100000000]),
    (29 / 50, [70897 / 10000, 47251 / 20000, 115839 / 1000000, 162557 / 100000000], [110533 / 125000, 218581 / 500000, 53759 / 500000, 953237 / 100000000]),
    (3 / 5, [39987 / 6250, 302771 / 100000, 256107 / 1000000, 121941 / 10000000], [942439 / 1000000, 480793 / 1000000, 152123 / 1000000, 138601 / 5000000]),
    (31 / 50, [314573 / 50000, 320893 / 100000, 298839 / 1000000, 74077 / 5000000], [97823 / 100000, 118611 / 250000, 29323 / 200000, 10497 / 400000]),
    (63 / 100, [624609 / 100000, 82261 / 25000, 320663 / 1000000, 162281 / 10000000], [995781 / 1000000, 471937 / 1000000, 72171 / 500000, 128113 / 5000000])]⟩

/-- Range 4 of the table. -/
def range4 : Range ℚ := ⟨31 / 50, 71 / 100, [
    (31 / 50, [314573 / 50000, 320893 / 100000, 298839 / 1000000, 74077 / 5000000, 0], [97823 / 100000, 118611 / 250000, 29323 / 200000, 10497 / 400000, 49333 / 25000000]),
    (63 / 100, [304699 / 50000, 84543 / 25000, 74453 / 200000, 254703 / 10000000, 68227 / 100000000], [100341 / 100000, 243657 / 500000, 161969 / 1000000, 366079 / 10000000, 16341 / 4000000]),
    (16 / 25, [599343 / 100000, 174149 / 50000, 210713 / 500000, 340169 / 10000000, 75389 / 50000000], [51213 / 50000, 61479 / 125000, 42097 / 250000, 422731 / 10000000, 3949 / 625000]),
    (13 / 20, [592929 / 100000, 177957 / 50000, 57513 / 125000, 82447 / 2000000, 28741 / 12500000], [20869 / 20000, 246723 / 500000, 2674 / 15625, 454849 / 10000000, 760083 / 100000000]),
    (7 / 10, [580983 / 100000, 381707 / 100000, 588617 / 1000000, 73997 / 1250000, 360959 / 100000000], [112831 / 100000, 243769 / 500000, 81603 / 500000, 213559 / 5000000, 350477 / 50000000]),
    (71 / 100, [18137 / 3125, 192623 / 50000, 305579 / 500000, 156917 / 2500000, 9683 / 2500000], [57189 / 50000, 242929 / 500000, 80743 / 500000, 420891 / 10000000, 686317 / 100000000]),
    (3 / 4, [578581 / 100000, 398447 / 100000, 700589 / 1000000, 772783 / 10000000, 495831 / 100000000], [24087 / 20000, 96137 / 200000, 38827 / 250000, 396603 / 10000000, 157221 / 25000000])]⟩

/-- Range 5 of the table. -/
def range5 : Range ℚ := ⟨71 / 100, 3 / 2, [
    (71 / 100, [18137 / 3125, 192623 / 50000, 305579 / 500000, 156917 / 2500000, 9683 / 2500000, 0], [57189 / 50000, 242929 / 500000, 80743 / 500000, 420891 / 10000000, 686317 / 100000000, 125639 / 1000000000]),
    (18 / 25, [578449 / 100000, 389063 / 100000, 64027 / 100000, 346737 / 5000000, 482271 / 100000000, 47711 / 1000000000], [116019 / 100000, 243009 / 500000, 161901 / 1000000, 108209 / 2500000, 770569 / 100000000, 360731 / 1000000000]),
    (73 / 100, [288311 / 50000, 78493 / 20000, 670321 / 1000000, 385813 / 5000000, 617073 / 100000000, 149421 / 1000000000], [29411 / 25000, 973 / 2000, 81439 / 500000, 225117 / 5000000, 889761 / 100000000, 386047 / 500000000]),
    (37 / 50, [286917 / 50000, 197899 / 50000, 353069 / 500000, 220383 / 2500000, 168437 / 20000000, 385661 / 1000000000], [119343 / 100000, 488511 / 1000000, 165609 / 1000000, 9629 / 200000, 108527 / 10000000, 5623 / 4000000]),
    (3 / 4, [287019 / 50000, 49767 / 12500, 726531 / 1000000, 117803 / 1250000, 102561 / 10000000, 673631 / 1000000000], [120789 / 100000, 121797 / 250000, 1649 / 10000, 492449 / 10000000, 122331 / 10000000, 12009 / 6250000]),
    (4 / 5, [575213 / 100000, 409637 / 100000, 52183 / 62500, 29827 / 250000, 34469 / 2500000, 939471 / 1000000000], [31959 / 25000, 19289 / 40000, 159263 / 1000000, 18821 / 400000, 28727 / 2500000, 174917 / 100000000]),
    (17 / 20, [289691 / 50000, 104511 / 25000, 46633 / 50000, 72539 / 500000, 176549 / 10000000, 15511 / 12500000], [134231 / 100000, 238513 / 500000, 76989 / 500000, 449401 / 10000000, 6729 / 625000, 79461 / 50000000]),
    (9 / 10, [585237 / 100000, 53057 / 12500, 102239 / 100000, 5359 / 31250, 218791 / 10000000, 19807 / 12500000], [140053 / 100000, 471837 / 1000000, 149149 / 1000000, 214907 / 5000000, 101053 / 10000000, 36237 / 25000000]),
    (19 / 20, [29577 / 5000, 107359 / 25000, 110933 / 100000, 200379 / 1000000, 53553 / 2000000, 99693 / 50000000], [14543 / 10000, 116881 / 250000, 72701 / 500000, 207433 / 5000000, 958089 / 100000000, 1671 / 1250000]),
    (1, [299899 / 50000, 86779 / 20000, 29487 / 25000, 223347 / 1000000, 308197 / 10000000, 235229 / 100000000], [150163 / 100000, 230489 / 500000, 69987 / 500000, 2447 / 62500, 885129 / 100000000, 24043 / 20000000]),
    (11 / 10, [291793 / 50000, 228519 / 50000, 29267 / 20000, 79449 / 250000, 95273 / 2000000, 386133 / 100000000], [33401 / 20000, 487971 / 1000000, 14593 / 100000, 400137 / 10000000, 876429 / 100000000, 1151 / 1000000]),
    (6 / 5, [17913 / 3125, 237811 / 50000, 85757 / 50000, 410113 / 1000000, 82107 / 1250000, 281797 / 50000000], [36787 / 20000, 5119 / 10000, 18613 / 125000, 198001 / 5000000, 419681 / 50000000, 5359 / 5000000]),
    (13 / 10, [70871 / 12500, 122797 / 25000, 48487 / 25000, 249837 / 500000, 846701 / 10000000, 383117 / 50000000], [200901 / 100000, 53331 / 100000, 6007 / 40000, 77237 / 2000000, 158537 / 20000000, 494683 / 500000000]),
    (7 / 5, [564047 / 100000, 505007 / 100000, 213639 / 100000, 2919 / 5000, 104037 / 1000000, 247679 / 25000000], [217789 / 100000, 551721 / 1000000, 29983 / 200000, 372631 / 10000000, 185647 / 25000000, 227723 / 250000000]),
    (3 / 2, [141031 / 25000, 51737 / 10000, 115389 / 50000, 165503 / 250000, 386 / 3125, 123547 / 10000000], [117167 / 50000, 283367 / 500000, 18559 / 125000, 7143 / 200000, 693027 / 100000000, 419989 / 500000000]),
    (31 / 20, [565049 / 100000, 52323 / 10000, 238519 / 100000, 87307 / 125000, 133083 / 1000000, 34071 / 2500000], [30309 / 12500, 286517 / 500000, 2947 / 20000, 348749 / 10000000, 668341 / 100000000, 161339 / 200000000])]⟩

/-- Range 6 of the table. -/
def range6 : Range ℚ := ⟨3 / 2, 3, [
    (3 / 2, [141031 / 25000, 51737 / 10000, 115389 / 50000, 165503 / 250000, 386 / 3125, 123547 / 10000000, 0], [117167 / 50000, 283367 / 500000, 18559 / 125000, 7143 / 200000, 693027 / 100000000, 419989 / 500000000, 31851 / 250000000000]),
    (8 / 5, [561537 / 100000, 52611 / 10000, 49763 / 20000, 382997 / 500000, 3127 / 20000, 9047 / 500000, 24499 / 100000000], [252291 / 100000, 9212 / 15625, 18959 / 125000, 2836 / 78125, 358759 / 50000000, 947623 / 1000000000, 435091 / 10000000000]),
    (17 / 10, [569233 / 100000, 134633 / 25000, 51969 / 20000, 20251 / 25000, 82983 / 500000, 4679 / 250000, 168601 / 2500000000], [266711 / 100000, 295507 / 500000, 72367 / 500000, 16497 / 500000, 619227 / 100000000, 76251 / 100000000, 164929 / 10000000000]),
    (9 / 5, [54949 / 10000, 533007 / 100000, 142561 / 50000, 5233 / 5000, 136161 / 500000, 234323 / 5000000, 2909 / 800000], [146713 / 50000, 659773 / 1000000, 170579 / 1000000, 85407 / 2000000, 18867 / 2000000, 821 / 500000, 200853 / 1000000000]),
    (19 / 10, [282799 / 50000, 21983 / 4000, 145391 / 50000, 5157 / 5000, 15781 / 62500, 382267 / 10000000, 159733 / 100000000], [76123 / 25000, 80051 / 125000, 153817 / 1000000, 177329 / 5000000, 141613 / 20000000, 1321 / 1250000, 993631 / 10000000000]),
    (2, [541041 / 100000, 21463 / 4000, 62903 / 20000, 26297 / 20000, 203339 / 500000, 902769 / 10000000, 14271 / 1250000], [337063 / 100000, 732207 / 1000000, 47247 / 250000, 30339 / 625000, 57241 / 5000000, 228187 / 100000000, 330023 / 1000000000]),
    (21 / 10, [108721 / 20000, 33939 / 6250, 13019 / 4000, 139479 / 100000, 88813 / 200000, 51009 / 500000, 133629 / 10000000], [89079 / 25000, 75047 / 100000, 188957 / 1000000, 237879 / 5000000, 110707 / 10000000, 109887 / 50000000, 322841 / 1000000000]),
    (23 / 10, [110139 / 20000, 13879 / 2500, 344571 / 100000, 154199 / 100000, 517969 / 1000000, 126929 / 1000000, 4429 / 250000], [98583 / 25000, 782323 / 1000000, 188001 / 1000000, 456873 / 10000000, 51979 / 5000000, 205463 / 100000000, 31153 / 100000000]),
    (5 / 2, [139913 / 25000, 566277 / 100000, 18039 / 5000, 10467 / 6250, 59009 / 100000, 153297 / 1000000, 226131 / 10000000], [215723 / 50000, 404439 / 500000, 93127 / 500000, 438849 / 10000000, 980639 / 100000000, 9683 / 5000000, 151579 / 500000000]),
    (27 / 10, [142427 / 25000, 576403 / 100000, 187399 / 50000, 22451 / 12500, 66079 / 100000, 36199 / 200000, 140043 / 5000000], [18703 / 4000, 207847 / 250000, 92083 / 500000, 211213 / 5000000, 930319 / 100000000, 92023 / 50000000, 29719 / 100000000]),
    (3, [292961 / 50000, 147473 / 25000, 24539 / 6250, 49021 / 25000, 382189 / 500000, 224729 / 1000000, 23091 / 625000], [519717 / 100000, 85919 / 100000, 45211 / 250000, 200541 / 5000000, 869111 / 100000000, 86501 / 50000000, 29187 / 100000000]),
    (31 / 10, [591409 / 100000, 29699 / 5000, 198959 / 50000, 201211 / 100000, 199573 / 250000, 239767 / 1000000, 2507 / 62500], [536623 / 100000, 867383 / 1000000, 179783 / 1000000, 98711 / 2500000, 106487 / 12500000, 8501 / 5000000, 290821 / 1000000000])]⟩

/-- Range 7 of the table. -/
def range7 : Range ℚ := ⟨3, 63 / 10, [
    (3, [292961 / 50000, 147473 / 25000, 24539 / 6250, 49021 / 25000, 382189 / 500000, 224729 / 1000000, 23091 / 625000, 0], [519717 / 100000, 85919 / 100000, 45211 / 250000, 200541 / 5000000, 869111 / 100000000, 86501 / 50000000, 29187 / 100000000, 6369 / 50000000000]),
    (31 / 10, [589261 / 100000, 118549 / 20000, 99643 / 25000, 202531 / 100000, 404349 / 500000, 245297 / 1000000, 52767 / 1250000, 56447 / 500000000], [539377 / 100000, 109431 / 125000, 22783 / 125000, 201121 / 5000000, 436433 / 50000000, 17551 / 10000000, 75893 / 250000000, 119031 / 10000000000]),
    (16 / 5, [144681 / 25000, 586899 / 100000, 407897 / 100000, 217279 / 100000, 461553 / 500000, 38269 / 125000, 160489 / 2500000, 213177 / 100000000], [18063 / 3125, 236801 / 250000, 50223 / 250000, 91019 / 2000000, 801 / 78125, 217963 / 100000000, 103407 / 250000000, 296731 / 5000000000]),
    (33 / 10, [136759 / 25000, 281039 / 50000, 20891 / 5000, 15303 / 6250, 117503 / 100000, 461173 / 1000000, 27043 / 200000, 38289 / 2000000], [325001 / 50000, 3532 / 3125, 128829 / 500000, 632557 / 10000000, 78417 / 5000000, 75409 / 20000000, 851159 / 1000000000, 178873 / 1000000000]),
    (17 / 5, [10843 / 2000, 5571 / 1000, 422317 / 100000, 2551 / 1000, 127341 / 100000, 263581 / 500000, 168619 / 1000000, 141447 / 5000000], [171681 / 25000, 119689 / 100000, 137789 / 500000, 137337 / 2000000, 43487 / 2500000, 431013 / 100000000, 25209 / 25000000, 212777 / 1000000000]),
    (7 / 2, [272473 / 50000, 559631 / 100000, 2668 / 625, 260459 / 100000, 16477 / 12500, 277441 / 500000, 90337 / 500000, 307001 / 10000000], [712481 / 100000, 122187 / 100000, 139047 / 500000, 687613 / 10000000, 10841 / 625000, 214779 / 50000000, 100893 / 100000000, 107499 / 500000000]),
    (4, [560921 / 100000, 572377 / 100000, 446477 / 100000, 11347 / 4000, 75987 / 50000, 686093 / 1000000, 3753 / 15625, 106613 / 2500000], [33611 / 4000, 26671 / 20000, 287321 / 1000000, 342573 / 5000000, 169499 / 10000000, 83773 / 20000000, 50121 / 50000000, 27973 / 125000000]),
    (9 / 2, [600513 / 100000, 116327 / 20000, 451757 / 100000, 58461 / 20000, 162101 / 100000, 383381 / 500000, 141057 / 500000, 64541 / 1250000], [213717 / 25000, 127631 / 100000, 13211 / 50000, 153253 / 2500000, 14927 / 1000000, 22971 / 6250000, 444523 / 500000000, 204293 / 1000000000]),
    (5, [634001 / 100000, 5893 / 1000, 91319 / 20000, 150159 / 50000, 85829 / 50000, 844897 / 1000000, 40493 / 125000, 121421 / 2000000], [432399 / 50000, 122663 / 100000, 245659 / 1000000, 557539 / 10000000, 134131 / 10000000, 329657 / 100000000, 805513 / 1000000000, 94841 / 500000000]),
    (11 / 2, [662811 / 100000, 595913 / 100000, 461021 / 100000, 61531 / 20000, 36103 / 20000, 919469 / 1000000, 73001 / 200000, 174279 / 2500000], [871157 / 100000, 118229 / 100000, 57547 / 250000, 513001 / 10000000, 61139 / 5000000, 6009 / 2000000, 741307 / 1000000000, 178303 / 1000000000]),
    (6, [343799 / 50000, 37599 / 6250, 93039 / 20000, 62909 / 20000, 188867 / 100000, 495441 / 500000, 404981 / 1000000, 785137 / 10000000], [875587 / 100000, 57199 / 50000, 108697 / 500000, 477077 / 10000000, 14107 / 1250000, 277359 / 100000000, 690429 / 1000000000, 10573 / 62500000]),
    (61 / 10, [691899 / 100000, 120491 / 20000, 18641 / 4000, 316021 / 100000, 95317 / 50000, 50291 / 50000, 413331 / 1000000, 200911 / 2500000], [54807 / 6250, 113837 / 100000, 10773 / 50000, 471597 / 10000000, 557 / 50000, 273729 / 100000000, 136453 / 200000000, 83833 / 500000000]),
    (31 / 5, [696467 / 100000, 18859 / 3125, 58343 / 12500, 9914 / 3125, 192163 / 100000, 20387 / 20000, 421289 / 1000000, 51359 / 625000], [877167 / 100000, 113077 / 100000, 13319 / 62500, 232621 / 5000000, 109783 / 10000000, 16869 / 6250000, 337039 / 500000000, 166197 / 1000000000]),
    (63 / 10, [700941 / 100000, 302323 / 50000, 58441 / 12500, 15921 / 5000, 96807 / 50000, 103217 / 100000, 107119 / 250000, 837091 / 10000000], [877363 / 100000, 112301 / 100000, 210661 / 1000000, 229303 / 5000000, 27021 / 2500000, 132883 / 50000000, 83113 / 125000000, 82269 / 500000000])]⟩

/-- `fits`, sersic.py 40-212. -/
def table : List (Range ℚ) := [range0, range1, range2, range3, range4, range5, range6, range7]

/-- `self.cores`, sersic.py 217-241. -/
def cores : List (ℚ × ℚ) := [
  (1, 0), (5 / 4, 7 / 100000), (3 / 2, 101 / 500000), (7 / 4, 17 / 40000), (2, 769 / 1000000), (9 / 4, 631 / 500000), (5 / 2, 241 / 125000), (11 / 4, 697 / 250000), (3, 3853 / 1000000), (13 / 4, 513 / 100000), (7 / 2, 3311 / 500000), (15 / 4, 333 / 40000), (4, 10233 / 1000000), (17 / 4, 2937 / 250000), (9 / 2, 6679 / 500000), (19 / 4, 15057 / 1000000), (5, 16839 / 1000000), (21 / 4, 9349 / 500000), (11 / 2, 5157 / 250000), (23 / 4, 181 / 8000), (6, 24683 / 1000000), (25 / 4, 6699 / 250000), (13 / 2, 28961 / 1000000)]

end Verif.Gal.Sersic

import Mathlib.Data.Rat.Defs

/-!
# Tables of `fluids/piping.py`

Generated by `tools/piping_tables.py` from the text of the source. Each number is the exact decimal written there (the code holds the nearest
double). `d n e` is the decimal `n / 10^e`. Pipe dimensions are in mm, nominal sizes as tabulated.
-/

namespace Verif.Piping

/-- piping.py:67: the decimal `n · 10⁻ᵉ` (notation for the literals of the source) -/
def d (n : ℤ) (e : ℕ) : ℚ := mkRat n (10 ^ e)

/-- one schedule: the tuple `(NPSes, Dis, Dos, ts)` (piping.py:744) -/
structure Table where
  nps : List ℚ
  di : List ℚ
  od : List ℚ
  t : List ℚ

/-- one wire schedule: `(gauges, inch, SI)` (piping.py:906-911; the fourth entry, a flag, is never used) -/
structure Wire where
  gauges : List ℚ
  inch : List ℚ
  si : List ℚ

/-- piping.py:499: schedule "40" = (NPS40, S40i, S40o, S40t), from lines 87, 88, 89, 90 -/
def T_40 : Table where
  nps := [d 125 3, d 25 2, d 375 3, d 5 1, d 75 2, d 1 0, d 125 2, d 15 1, d 2 0, d 25 1, d 3 0, d 35 1, d 4 0, d 5 0, d 6 0, d 8 0, d 10 0, d 12 0,
    d 14 0, d 16 0, d 18 0, d 20 0, d 24 0, d 32 0, d 34 0, d 36 0]
  di := [d 684 2, d 922 2, d 1248 2, d 1576 2, d 2096 2, d 2664 2, d 3508 2, d 4094 2, d 5248 2, d 6268 2, d 7792 2, d 9012 2, d 10226 2, d 1282 1,
    d 15408 2, d 20274 2, d 25446 2, d 30318 2, d 33334 2, d 381 0, d 42846 2, d 47782 2, d 57504 2, d 77804 2, d 82904 2, d 8759 1]
  od := [d 103 1, d 137 1, d 171 1, d 213 1, d 267 1, d 334 1, d 422 1, d 483 1, d 603 1, d 73 0, d 889 1, d 1016 1, d 1143 1, d 1413 1, d 1683 1,
    d 2191 1, d 273 0, d 3238 1, d 3556 1, d 4064 1, d 457 0, d 508 0, d 610 0, d 813 0, d 864 0, d 914 0]
  t := [d 173 2, d 224 2, d 231 2, d 277 2, d 287 2, d 338 2, d 356 2, d 368 2, d 391 2, d 516 2, d 549 2, d 574 2, d 602 2, d 655 2, d 711 2,
    d 818 2, d 927 2, d 1031 2, d 1113 2, d 127 1, d 1427 2, d 1509 2, d 1748 2, d 1748 2, d 1748 2, d 1905 2]

/-- piping.py:500: schedule "5" = (NPS5, S5i, S5o, S5t), from lines 67, 68, 69, 70 -/
def T_5 : Table where
  nps := [d 5 1, d 75 2, d 1 0, d 125 2, d 15 1, d 2 0, d 25 1, d 3 0, d 35 1, d 4 0, d 5 0, d 6 0, d 8 0, d 10 0, d 12 0, d 14 0, d 16 0, d 18 0,
    d 20 0, d 22 0, d 24 0, d 30 0]
  di := [d 18 0, d 234 1, d 301 1, d 389 1, d 45 0, d 57 0, d 6878 2, d 8468 2, d 9738 2, d 11008 2, d 13576 2, d 16276 2, d 21356 2, d 2662 1,
    d 31588 2, d 34768 2, d 39802 2, d 44862 2, d 49844 2, d 54944 2, d 59892 2, d 7493 1]
  od := [d 213 1, d 267 1, d 334 1, d 422 1, d 483 1, d 603 1, d 73 0, d 889 1, d 1016 1, d 1143 1, d 1413 1, d 1683 1, d 2191 1, d 273 0, d 3238 1,
    d 3556 1, d 4064 1, d 457 0, d 508 0, d 559 0, d 610 0, d 762 0]
  t := [d 165 2, d 165 2, d 165 2, d 165 2, d 165 2, d 165 2, d 211 2, d 211 2, d 211 2, d 211 2, d 277 2, d 277 2, d 277 2, d 34 1, d 396 2,
    d 396 2, d 419 2, d 419 2, d 478 2, d 478 2, d 554 2, d 635 2]

/-- piping.py:501: schedule "10" = (NPS10, S10i, S10o, S10t), from lines 72, 73, 74, 75 -/
def T_10 : Table where
  nps := [d 125 3, d 25 2, d 375 3, d 5 1, d 75 2, d 1 0, d 125 2, d 15 1, d 2 0, d 25 1, d 3 0, d 35 1, d 4 0, d 5 0, d 6 0, d 8 0, d 10 0, d 12 0,
    d 14 0, d 16 0, d 18 0, d 20 0, d 22 0, d 24 0, d 26 0, d 28 0, d 30 0, d 32 0, d 34 0, d 36 0]
  di := [d 782 2, d 104 1, d 138 1, d 1708 2, d 2248 2, d 2786 2, d 3666 2, d 4276 2, d 5476 2, d 669 1, d 828 1, d 955 1, d 1082 1, d 1345 1,
    d 1615 1, d 21158 2, d 26462 2, d 31466 2, d 3429 1, d 3937 1, d 4443 1, d 4953 1, d 5463 1, d 5973 1, d 64416 2, d 69516 2, d 74616 2,
    d 79716 2, d 84816 2, d 89816 2]
  od := [d 103 1, d 137 1, d 171 1, d 213 1, d 267 1, d 334 1, d 422 1, d 483 1, d 603 1, d 73 0, d 889 1, d 1016 1, d 1143 1, d 1413 1, d 1683 1,
    d 2191 1, d 273 0, d 3238 1, d 3556 1, d 4064 1, d 457 0, d 508 0, d 559 0, d 610 0, d 660 0, d 711 0, d 762 0, d 813 0, d 864 0, d 914 0]
  t := [d 124 2, d 165 2, d 165 2, d 211 2, d 211 2, d 277 2, d 277 2, d 277 2, d 277 2, d 305 2, d 305 2, d 305 2, d 305 2, d 34 1, d 34 1, d 376 2,
    d 419 2, d 457 2, d 635 2, d 635 2, d 635 2, d 635 2, d 635 2, d 635 2, d 792 2, d 792 2, d 792 2, d 792 2, d 792 2, d 792 2]

/-- piping.py:502: schedule "20" = (NPS20, S20i, S20o, S20t), from lines 77, 78, 79, 80 -/
def T_20 : Table where
  nps := [d 8 0, d 10 0, d 12 0, d 14 0, d 16 0, d 18 0, d 20 0, d 22 0, d 24 0, d 26 0, d 28 0, d 30 0, d 32 0, d 34 0, d 36 0]
  di := [d 2064 1, d 2603 1, d 3111 1, d 33976 2, d 39056 2, d 44116 2, d 48894 2, d 53994 2, d 59094 2, d 6346 1, d 6856 1, d 7366 1, d 7876 1,
    d 8386 1, d 8886 1]
  od := [d 2191 1, d 273 0, d 3238 1, d 3556 1, d 4064 1, d 457 0, d 508 0, d 559 0, d 610 0, d 660 0, d 711 0, d 762 0, d 813 0, d 864 0, d 914 0]
  t := [d 635 2, d 635 2, d 635 2, d 792 2, d 792 2, d 792 2, d 953 2, d 953 2, d 953 2, d 127 1, d 127 1, d 127 1, d 127 1, d 127 1, d 127 1]

/-- piping.py:503: schedule "30" = (NPS30, S30i, S30o, S30t), from lines 82, 83, 84, 85 -/
def T_30 : Table where
  nps := [d 125 3, d 25 2, d 375 3, d 5 1, d 75 2, d 1 0, d 125 2, d 15 1, d 2 0, d 25 1, d 3 0, d 35 1, d 4 0, d 8 0, d 10 0, d 12 0, d 14 0,
    d 16 0, d 18 0, d 20 0, d 22 0, d 24 0, d 28 0, d 30 0, d 32 0, d 34 0, d 36 0]
  di := [d 74 1, d 10 0, d 134 1, d 1648 2, d 2188 2, d 276 1, d 3626 2, d 4194 2, d 5394 2, d 6344 2, d 7934 2, d 9204 2, d 10474 2, d 20502 2,
    d 2574 1, d 30704 2, d 33654 2, d 38734 2, d 43474 2, d 4826 1, d 5336 1, d 58146 2, d 67924 2, d 73024 2, d 78124 2, d 83224 2, d 88224 2]
  od := [d 103 1, d 137 1, d 171 1, d 213 1, d 267 1, d 334 1, d 422 1, d 483 1, d 603 1, d 73 0, d 889 1, d 1016 1, d 1143 1, d 2191 1, d 273 0,
    d 3238 1, d 3556 1, d 4064 1, d 457 0, d 508 0, d 559 0, d 610 0, d 711 0, d 762 0, d 813 0, d 864 0, d 914 0]
  t := [d 145 2, d 185 2, d 185 2, d 241 2, d 241 2, d 29 1, d 297 2, d 318 2, d 318 2, d 478 2, d 478 2, d 478 2, d 478 2, d 704 2, d 78 1, d 838 2,
    d 953 2, d 953 2, d 1113 2, d 127 1, d 127 1, d 1427 2, d 1588 2, d 1588 2, d 1588 2, d 1588 2, d 1588 2]

/-- piping.py:504: schedule "60" = (NPS60, S60i, S60o, S60t), from lines 92, 93, 94, 95 -/
def T_60 : Table where
  nps := [d 8 0, d 10 0, d 12 0, d 14 0, d 16 0, d 18 0, d 20 0, d 22 0, d 24 0]
  di := [d 19848 2, d 2476 1, d 29526 2, d 32542 2, d 37308 2, d 4189 1, d 46676 2, d 51454 2, d 56078 2]
  od := [d 2191 1, d 273 0, d 3238 1, d 3556 1, d 4064 1, d 457 0, d 508 0, d 559 0, d 610 0]
  t := [d 1031 2, d 127 1, d 1427 2, d 1509 2, d 1666 2, d 1905 2, d 2062 2, d 2223 2, d 2461 2]

/-- piping.py:505: schedule "80" = (NPS80, S80i, S80o, S80t), from lines 97, 98, 99, 100 -/
def T_80 : Table where
  nps := [d 125 3, d 25 2, d 375 3, d 5 1, d 75 2, d 1 0, d 125 2, d 15 1, d 2 0, d 25 1, d 3 0, d 35 1, d 4 0, d 5 0, d 6 0, d 8 0, d 10 0, d 12 0,
    d 14 0, d 16 0, d 18 0, d 20 0, d 22 0, d 24 0]
  di := [d 548 2, d 766 2, d 107 1, d 1384 2, d 1888 2, d 243 1, d 325 1, d 3814 2, d 4922 2, d 5898 2, d 7366 2, d 8544 2, d 9718 2, d 12224 2,
    d 14636 2, d 1937 1, d 24282 2, d 28884 2, d 3175 1, d 36352 2, d 40934 2, d 45562 2, d 50184 2, d 54808 2]
  od := [d 103 1, d 137 1, d 171 1, d 213 1, d 267 1, d 334 1, d 422 1, d 483 1, d 603 1, d 73 0, d 889 1, d 1016 1, d 1143 1, d 1413 1, d 1683 1,
    d 2191 1, d 273 0, d 3238 1, d 3556 1, d 4064 1, d 457 0, d 508 0, d 559 0, d 610 0]
  t := [d 241 2, d 302 2, d 32 1, d 373 2, d 391 2, d 455 2, d 485 2, d 508 2, d 554 2, d 701 2, d 762 2, d 808 2, d 856 2, d 953 2, d 1097 2,
    d 127 1, d 1509 2, d 1748 2, d 1905 2, d 2144 2, d 2383 2, d 2619 2, d 2858 2, d 3096 2]

/-- piping.py:506: schedule "100" = (NPS100, S100i, S100o, S100t), from lines 102, 103, 104, 105 -/
def T_100 : Table where
  nps := [d 8 0, d 10 0, d 12 0, d 14 0, d 16 0, d 18 0, d 20 0, d 22 0, d 24 0]
  di := [d 18892 2, d 23648 2, d 28092 2, d 30794 2, d 35402 2, d 39828 2, d 44292 2, d 48914 2, d 53222 2]
  od := [d 2191 1, d 273 0, d 3238 1, d 3556 1, d 4064 1, d 457 0, d 508 0, d 559 0, d 610 0]
  t := [d 1509 2, d 1826 2, d 2144 2, d 2383 2, d 2619 2, d 2936 2, d 3254 2, d 3493 2, d 3889 2]

/-- piping.py:507: schedule "120" = (NPS120, S120i, S120o, S120t), from lines 107, 108, 109, 110 -/
def T_120 : Table where
  nps := [d 4 0, d 5 0, d 6 0, d 8 0, d 10 0, d 12 0, d 14 0, d 16 0, d 18 0, d 20 0, d 22 0, d 24 0]
  di := [d 9204 2, d 1159 1, d 13976 2, d 18258 2, d 23012 2, d 273 0, d 30002 2, d 34448 2, d 38714 2, d 4318 1, d 47644 2, d 51796 2]
  od := [d 1143 1, d 1413 1, d 1683 1, d 2191 1, d 273 0, d 3238 1, d 3556 1, d 4064 1, d 457 0, d 508 0, d 559 0, d 610 0]
  t := [d 1113 2, d 127 1, d 1427 2, d 1826 2, d 2144 2, d 254 1, d 2779 2, d 3096 2, d 3493 2, d 381 1, d 4128 2, d 4602 2]

/-- piping.py:508: schedule "140" = (NPS140, S140i, S140o, S140t), from lines 112, 113, 114, 115 -/
def T_140 : Table where
  nps := [d 8 0, d 10 0, d 12 0, d 14 0, d 16 0, d 18 0, d 20 0, d 22 0, d 24 0]
  di := [d 17786 2, d 2222 1, d 26664 2, d 2921 1, d 33334 2, d 37766 2, d 4191 1, d 46374 2, d 50526 2]
  od := [d 2191 1, d 273 0, d 3238 1, d 3556 1, d 4064 1, d 457 0, d 508 0, d 559 0, d 610 0]
  t := [d 2062 2, d 254 1, d 2858 2, d 3175 2, d 3653 2, d 3967 2, d 4445 2, d 4763 2, d 5237 2]

/-- piping.py:509: schedule "160" = (NPS160, S160i, S160o, S160t), from lines 117, 118, 119, 120 -/
def T_160 : Table where
  nps := [d 5 1, d 75 2, d 1 0, d 125 2, d 15 1, d 2 0, d 25 1, d 3 0, d 4 0, d 5 0, d 6 0, d 8 0, d 10 0, d 12 0, d 14 0, d 16 0, d 18 0, d 20 0,
    d 22 0, d 24 0]
  di := [d 1174 2, d 1558 2, d 207 1, d 295 1, d 3402 2, d 4282 2, d 5394 2, d 6664 2, d 8732 2, d 10954 2, d 13178 2, d 17308 2, d 21584 2,
    d 25716 2, d 28418 2, d 32542 2, d 36652 2, d 40798 2, d 45104 2, d 49092 2]
  od := [d 213 1, d 267 1, d 334 1, d 422 1, d 483 1, d 603 1, d 73 0, d 889 1, d 1143 1, d 1413 1, d 1683 1, d 2191 1, d 273 0, d 3238 1, d 3556 1,
    d 4064 1, d 457 0, d 508 0, d 559 0, d 610 0]
  t := [d 478 2, d 556 2, d 635 2, d 635 2, d 714 2, d 874 2, d 953 2, d 1113 2, d 1349 2, d 1588 2, d 1826 2, d 2301 2, d 2858 2, d 3332 2,
    d 3571 2, d 4049 2, d 4524 2, d 5001 2, d 5398 2, d 5954 2]

/-- piping.py:510: schedule "STD" = (NPSSTD, STDi, STDo, STDt), from lines 123, 124, 125, 126 -/
def T_STD : Table where
  nps := [d 125 3, d 25 2, d 375 3, d 5 1, d 75 2, d 1 0, d 125 2, d 15 1, d 2 0, d 25 1, d 3 0, d 35 1, d 4 0, d 5 0, d 6 0, d 8 0, d 10 0, d 12 0,
    d 14 0, d 16 0, d 18 0, d 20 0, d 22 0, d 24 0, d 26 0, d 28 0, d 30 0, d 32 0, d 34 0, d 36 0, d 38 0, d 40 0, d 42 0, d 44 0, d 46 0, d 48 0]
  di := [d 684 2, d 922 2, d 1248 2, d 1576 2, d 2096 2, d 2664 2, d 3508 2, d 4094 2, d 5248 2, d 6268 2, d 7792 2, d 9012 2, d 10226 2, d 1282 1,
    d 15408 2, d 20274 2, d 25446 2, d 30474 2, d 33654 2, d 38734 2, d 43794 2, d 48894 2, d 53994 2, d 59094 2, d 64094 2, d 69194 2, d 74294 2,
    d 79394 2, d 84494 2, d 89494 2, d 94594 2, d 99694 2, d 104794 2, d 109894 2, d 114894 2, d 119994 2]
  od := [d 103 1, d 137 1, d 171 1, d 213 1, d 267 1, d 334 1, d 422 1, d 483 1, d 603 1, d 73 0, d 889 1, d 1016 1, d 1143 1, d 1413 1, d 1683 1,
    d 2191 1, d 273 0, d 3238 1, d 3556 1, d 4064 1, d 457 0, d 508 0, d 559 0, d 610 0, d 660 0, d 711 0, d 762 0, d 813 0, d 864 0, d 914 0,
    d 965 0, d 1016 0, d 1067 0, d 1118 0, d 1168 0, d 1219 0]
  t := [d 173 2, d 224 2, d 231 2, d 277 2, d 287 2, d 338 2, d 356 2, d 368 2, d 391 2, d 516 2, d 549 2, d 574 2, d 602 2, d 655 2, d 711 2,
    d 818 2, d 927 2, d 953 2, d 953 2, d 953 2, d 953 2, d 953 2, d 953 2, d 953 2, d 953 2, d 953 2, d 953 2, d 953 2, d 953 2, d 953 2, d 953 2,
    d 953 2, d 953 2, d 953 2, d 953 2, d 953 2]

/-- piping.py:511: schedule "XS" = (NPSXS, XSi, XSo, XSt), from lines 128, 129, 130, 131 -/
def T_XS : Table where
  nps := [d 125 3, d 25 2, d 375 3, d 5 1, d 75 2, d 1 0, d 125 2, d 15 1, d 2 0, d 25 1, d 3 0, d 35 1, d 4 0, d 5 0, d 6 0, d 8 0, d 10 0, d 12 0,
    d 14 0, d 16 0, d 18 0, d 20 0, d 22 0, d 24 0, d 26 0, d 28 0, d 30 0, d 32 0, d 34 0, d 36 0, d 38 0, d 40 0, d 42 0, d 44 0, d 46 0, d 48 0]
  di := [d 548 2, d 766 2, d 107 1, d 1384 2, d 1888 2, d 243 1, d 325 1, d 3814 2, d 4922 2, d 5898 2, d 7366 2, d 8544 2, d 9718 2, d 12224 2,
    d 14636 2, d 1937 1, d 2476 1, d 2984 1, d 3302 1, d 381 0, d 4316 1, d 4826 1, d 5336 1, d 5846 1, d 6346 1, d 6856 1, d 7366 1, d 7876 1,
    d 8386 1, d 8886 1, d 9396 1, d 9906 1, d 10416 1, d 10926 1, d 11426 1, d 11936 1]
  od := [d 103 1, d 137 1, d 171 1, d 213 1, d 267 1, d 334 1, d 422 1, d 483 1, d 603 1, d 73 0, d 889 1, d 1016 1, d 1143 1, d 1413 1, d 1683 1,
    d 2191 1, d 273 0, d 3238 1, d 3556 1, d 4064 1, d 457 0, d 508 0, d 559 0, d 610 0, d 660 0, d 711 0, d 762 0, d 813 0, d 864 0, d 914 0,
    d 965 0, d 1016 0, d 1067 0, d 1118 0, d 1168 0, d 1219 0]
  t := [d 241 2, d 302 2, d 32 1, d 373 2, d 391 2, d 455 2, d 485 2, d 508 2, d 554 2, d 701 2, d 762 2, d 808 2, d 856 2, d 953 2, d 1097 2,
    d 127 1, d 127 1, d 127 1, d 127 1, d 127 1, d 127 1, d 127 1, d 127 1, d 127 1, d 127 1, d 127 1, d 127 1, d 127 1, d 127 1, d 127 1, d 127 1,
    d 127 1, d 127 1, d 127 1, d 127 1, d 127 1]

/-- piping.py:512: schedule "XXS" = (NPSXXS, XXSi, XXSo, XXSt), from lines 133, 134, 135, 136 -/
def T_XXS : Table where
  nps := [d 5 1, d 75 2, d 1 0, d 125 2, d 15 1, d 2 0, d 25 1, d 3 0, d 4 0, d 5 0, d 6 0, d 8 0, d 10 0, d 12 0]
  di := [d 636 2, d 1106 2, d 1522 2, d 228 1, d 28 0, d 3816 2, d 4496 2, d 5842 2, d 8006 2, d 1032 1, d 1244 1, d 17464 2, d 2222 1, d 273 0]
  od := [d 213 1, d 267 1, d 334 1, d 422 1, d 483 1, d 603 1, d 73 0, d 889 1, d 1143 1, d 1413 1, d 1683 1, d 2191 1, d 273 0, d 3238 1]
  t := [d 747 2, d 782 2, d 909 2, d 97 1, d 1015 2, d 1107 2, d 1402 2, d 1524 2, d 1712 2, d 1905 2, d 2195 2, d 2223 2, d 254 1, d 254 1]

/-- piping.py:514: schedule "5S" = (NPSS5, SS5i, SS5o, SS5t), from lines 138, 140, 141, 142 -/
def T_5S : Table where
  nps := [d 5 1, d 75 2, d 1 0, d 125 2, d 15 1, d 2 0, d 25 1, d 3 0, d 35 1, d 4 0, d 5 0, d 6 0, d 8 0, d 10 0, d 12 0, d 14 0, d 16 0, d 18 0,
    d 20 0, d 22 0, d 24 0, d 30 0]
  di := [d 18 0, d 234 1, d 301 1, d 389 1, d 45 0, d 57 0, d 6878 2, d 8468 2, d 9738 2, d 11008 2, d 13576 2, d 16276 2, d 21356 2, d 2663 1,
    d 31598 2, d 34768 2, d 39802 2, d 44862 2, d 49844 2, d 54944 2, d 59892 2, d 7493 1]
  od := [d 213 1, d 267 1, d 334 1, d 422 1, d 483 1, d 603 1, d 73 0, d 889 1, d 1016 1, d 1143 1, d 1413 1, d 1683 1, d 2191 1, d 2731 1, d 3239 1,
    d 3556 1, d 4064 1, d 457 0, d 508 0, d 559 0, d 610 0, d 762 0]
  t := [d 165 2, d 165 2, d 165 2, d 165 2, d 165 2, d 165 2, d 211 2, d 211 2, d 211 2, d 211 2, d 277 2, d 277 2, d 277 2, d 34 1, d 396 2,
    d 396 2, d 419 2, d 419 2, d 478 2, d 478 2, d 554 2, d 635 2]

/-- piping.py:515: schedule "10S" = (NPSS10, SS10i, SS10o, SS10t), from lines 145, 147, 148, 149 -/
def T_10S : Table where
  nps := [d 125 3, d 25 2, d 375 3, d 5 1, d 75 2, d 1 0, d 125 2, d 15 1, d 2 0, d 25 1, d 3 0, d 35 1, d 4 0, d 5 0, d 6 0, d 8 0, d 10 0, d 12 0,
    d 14 0, d 16 0, d 18 0, d 20 0, d 22 0, d 24 0, d 30 0]
  di := [d 782 2, d 104 1, d 138 1, d 1708 2, d 2248 2, d 2786 2, d 3666 2, d 4276 2, d 5476 2, d 669 1, d 828 1, d 955 1, d 1082 1, d 1345 1,
    d 1615 1, d 21158 2, d 26472 2, d 31476 2, d 34604 2, d 39684 2, d 44744 2, d 49692 2, d 54792 2, d 5973 1, d 74616 2]
  od := [d 103 1, d 137 1, d 171 1, d 213 1, d 267 1, d 334 1, d 422 1, d 483 1, d 603 1, d 73 0, d 889 1, d 1016 1, d 1143 1, d 1413 1, d 1683 1,
    d 2191 1, d 2731 1, d 3239 1, d 3556 1, d 4064 1, d 457 0, d 508 0, d 559 0, d 610 0, d 762 0]
  t := [d 124 2, d 165 2, d 165 2, d 211 2, d 211 2, d 277 2, d 277 2, d 277 2, d 277 2, d 305 2, d 305 2, d 305 2, d 305 2, d 34 1, d 34 1, d 376 2,
    d 419 2, d 457 2, d 478 2, d 478 2, d 478 2, d 554 2, d 554 2, d 635 2, d 792 2]

/-- piping.py:516: schedule "40S" = (NPSS40, SS40i, SS40o, SS40t), from lines 151, 153, 154, 155 -/
def T_40S : Table where
  nps := [d 125 3, d 25 2, d 375 3, d 5 1, d 75 2, d 1 0, d 125 2, d 15 1, d 2 0, d 25 1, d 3 0, d 35 1, d 4 0, d 5 0, d 6 0, d 8 0, d 10 0, d 12 0,
    d 14 0, d 16 0, d 18 0, d 20 0, d 24 0]
  di := [d 684 2, d 922 2, d 1248 2, d 1576 2, d 2096 2, d 2664 2, d 3508 2, d 4094 2, d 5248 2, d 6268 2, d 7792 2, d 9012 2, d 10226 2, d 1282 1,
    d 15408 2, d 20274 2, d 25456 2, d 30484 2, d 33654 2, d 38734 2, d 43794 2, d 48894 2, d 59094 2]
  od := [d 103 1, d 137 1, d 171 1, d 213 1, d 267 1, d 334 1, d 422 1, d 483 1, d 603 1, d 73 0, d 889 1, d 1016 1, d 1143 1, d 1413 1, d 1683 1,
    d 2191 1, d 2731 1, d 3239 1, d 3556 1, d 4064 1, d 457 0, d 508 0, d 610 0]
  t := [d 173 2, d 224 2, d 231 2, d 277 2, d 287 2, d 338 2, d 356 2, d 368 2, d 391 2, d 516 2, d 549 2, d 574 2, d 602 2, d 655 2, d 711 2,
    d 818 2, d 927 2, d 953 2, d 953 2, d 953 2, d 953 2, d 953 2, d 953 2]

/-- piping.py:517: schedule "80S" = (NPSS80, SS80i, SS80o, SS80t), from lines 157, 159, 160, 161 -/
def T_80S : Table where
  nps := [d 125 3, d 25 2, d 375 3, d 5 1, d 75 2, d 1 0, d 125 2, d 15 1, d 2 0, d 25 1, d 3 0, d 35 1, d 4 0, d 5 0, d 6 0, d 8 0, d 10 0, d 12 0,
    d 14 0, d 16 0, d 18 0, d 20 0, d 24 0]
  di := [d 548 2, d 766 2, d 107 1, d 1384 2, d 1888 2, d 243 1, d 325 1, d 3814 2, d 4922 2, d 5898 2, d 7366 2, d 8544 2, d 9718 2, d 12224 2,
    d 14636 2, d 1937 1, d 2477 1, d 2985 1, d 3302 1, d 381 0, d 4316 1, d 4826 1, d 5846 1]
  od := [d 103 1, d 137 1, d 171 1, d 213 1, d 267 1, d 334 1, d 422 1, d 483 1, d 603 1, d 73 0, d 889 1, d 1016 1, d 1143 1, d 1413 1, d 1683 1,
    d 2191 1, d 2731 1, d 3239 1, d 3556 1, d 4064 1, d 457 0, d 508 0, d 610 0]
  t := [d 241 2, d 302 2, d 32 1, d 373 2, d 391 2, d 455 2, d 485 2, d 508 2, d 554 2, d 701 2, d 762 2, d 808 2, d 856 2, d 953 2, d 1097 2,
    d 127 1, d 127 1, d 127 1, d 127 1, d 127 1, d 127 1, d 127 1, d 127 1]

/-- piping.py:519: schedule "40D1527" = (NPS_D1527, S40i_D1527, S40o_D1527, S40t_D1527), from lines 164, 165, 166, 167 -/
def T_40D1527 : Table where
  nps := [d 125 3, d 25 2, d 375 3, d 5 1, d 75 2, d 1 0, d 125 2, d 15 1, d 2 0, d 25 1, d 3 0, d 35 1, d 4 0, d 5 0, d 6 0, d 8 0, d 10 0, d 12 0]
  di := [d 68326 4, d 92456 4, d 125222 4, d 157988 4, d 209296 4, d 266446 4, d 33528 3, d 40894 3, d 525018 4, d 627126 4, d 779272 4, d 901192 4,
    d 1022604 4, d 1281938 4, d 154051 3, d 2027174 4, d 254508 3, d 3032252 4]
  od := [d 10287 3, d 13716 3, d 17145 3, d 21336 3, d 2667 2, d 33401 3, d 4064 2, d 4826 2, d 60325 3, d 73025 3, d 889 1, d 1016 1, d 1143 1,
    d 1413002 4, d 168275 3, d 219075 3, d 27305 2, d 32385 2]
  t := [d 17272 4, d 22352 4, d 23114 4, d 27686 4, d 28702 4, d 33782 4, d 3556 3, d 3683 3, d 39116 4, d 51562 4, d 54864 4, d 57404 4, d 60198 4,
    d 65532 4, d 7112 3, d 81788 4, d 9271 3, d 103124 4]

/-- piping.py:520: schedule "80D1527" = (NPS_D1527, S80i_D1527, S80o_D1527, S80t_D1527), from lines 164, 166, 169, 170 -/
def T_80D1527 : Table where
  nps := [d 125 3, d 25 2, d 375 3, d 5 1, d 75 2, d 1 0, d 125 2, d 15 1, d 2 0, d 25 1, d 3 0, d 35 1, d 4 0, d 5 0, d 6 0, d 8 0, d 10 0, d 12 0]
  di := [d 5461 3, d 76708 4, d 107442 4, d 138684 4, d 188468 4, d 243078 4, d 309372 4, d 381 1, d 492506 4, d 590042 4, d 7366 2, d 854456 4,
    d 971804 4, d 1222502 4, d 1463294 4, d 193675 3, d 2429256 4, d 2889504 4]
  od := [d 10287 3, d 13716 3, d 17145 3, d 21336 3, d 2667 2, d 33401 3, d 4064 2, d 4826 2, d 60325 3, d 73025 3, d 889 1, d 1016 1, d 1143 1,
    d 1413002 4, d 168275 3, d 219075 3, d 27305 2, d 32385 2]
  t := [d 2413 3, d 30226 4, d 32004 4, d 37338 4, d 39116 4, d 45466 4, d 48514 4, d 508 2, d 55372 4, d 70104 4, d 762 2, d 80772 4, d 85598 4,
    d 9525 3, d 109728 4, d 127 1, d 150622 4, d 174498 4]

/-- piping.py:522: schedule "ABSD2680" = (NPS_D2680, SABSi_D2680, SABSo_D2680, SABSt_D2680), from lines 173, 174, 175, 176 -/
def T_ABSD2680 : Table where
  nps := [d 8 0, d 10 0, d 12 0, d 15 0]
  di := [d 19685 2, d 24765 2, d 29845 2, d 37465 2]
  od := [d 239014 3, d 29845 2, d 357378 3, d 447548 3]
  t := [d 21082 3, d 254 1, d 29464 3, d 36449 3]

/-- piping.py:523: schedule "PVCD2680" = (NPS_D2680, SPVCi_D2680, SPVCo_D2680, SPVCt_D2680), from lines 173, 174, 175, 176 -/
def T_PVCD2680 : Table where
  nps := [d 8 0, d 10 0, d 12 0, d 15 0]
  di := [d 19685 2, d 24765 2, d 29845 2, d 37465 2]
  od := [d 239014 3, d 29845 2, d 357378 3, d 447548 3]
  t := [d 21082 3, d 254 1, d 29464 3, d 36449 3]

/-- piping.py:524: schedule "DR25C900" = (NPS_C900, SDR25i_C900, SDR25o_C900, SDR25t_C900), from lines 182, 183, 184, 185 -/
def T_DR25C900 : Table where
  nps := [d 4 0, d 6 0, d 8 0, d 10 0, d 12 0]
  di := [d 11214 2, d 16128 2, d 21152 2, d 25934 2, d 30848 2]
  od := [d 1219 1, d 1753 1, d 2299 1, d 2819 1, d 3353 1]
  t := [d 488 2, d 701 2, d 919 2, d 1128 2, d 1341 2]

/-- piping.py:525: schedule "DR18C900" = (NPS_C900, SDR18i_C900, SDR18o_C900, SDR18t_C900), from lines 182, 183, 187, 188 -/
def T_DR18C900 : Table where
  nps := [d 4 0, d 6 0, d 8 0, d 10 0, d 12 0]
  di := [d 10834 2, d 15584 2, d 20434 2, d 25056 2, d 29806 2]
  od := [d 1219 1, d 1753 1, d 2299 1, d 2819 1, d 3353 1]
  t := [d 678 2, d 973 2, d 1278 2, d 1567 2, d 1862 2]

/-- piping.py:526: schedule "DR14C900" = (NPS_C900, SDR14i_C900, SDR14o_C900, SDR14t_C900), from lines 182, 183, 190, 191 -/
def T_DR14C900 : Table where
  nps := [d 4 0, d 6 0, d 8 0, d 10 0, d 12 0]
  di := [d 10448 2, d 15026 2, d 19708 2, d 24162 2, d 2874 1]
  od := [d 1219 1, d 1753 1, d 2299 1, d 2819 1, d 3353 1]
  t := [d 871 2, d 1252 2, d 1641 2, d 2014 2, d 2395 2]

/-- piping.py:528: schedule "CIDR51C905" = (NPSCIDR51_C905, SCIDR51i_C905, SCIDR51o_C905, SCIDR51t_C905), from lines 228, 229, 230, 231 -/
def T_CIDR51C905 : Table where
  nps := [d 18 0, d 20 0, d 24 0, d 30 0, d 36 0, d 42 0, d 48 0]
  di := [d 4759 1, d 52706 2, d 6296 1, d 78094 2, d 93464 2, d 1086 0, d 12397 1]
  od := [d 4953 1, d 5486 1, d 6553 1, d 8128 1, d 9728 1, d 11303 1, d 12903 1]
  t := [d 97 1, d 1077 2, d 1285 2, d 1593 2, d 1908 2, d 2215 2, d 253 1]

/-- piping.py:529: schedule "CIDR41C905" = (NPSCIDR41_C905, SCIDR41i_C905, SCIDR41o_C905, SCIDR41t_C905), from lines 223, 224, 225, 226 -/
def T_CIDR41C905 : Table where
  nps := [d 14 0, d 16 0, d 18 0, d 20 0, d 24 0, d 30 0, d 36 0, d 42 0, d 48 0]
  di := [d 36966 2, d 42046 2, d 47112 2, d 52182 2, d 62334 2, d 77318 2, d 92536 2, d 107518 2, d 122736 2]
  od := [d 3886 1, d 442 0, d 4953 1, d 5486 1, d 6553 1, d 8128 1, d 9728 1, d 11303 1, d 12903 1]
  t := [d 947 2, d 1077 2, d 1209 2, d 1339 2, d 1598 2, d 1981 2, d 2372 2, d 2756 2, d 3147 2]

/-- piping.py:530: schedule "CIDR325C905" = (NPSCIDR325_C905, SCIDR325i_C905, SCIDR325o_C905, SCIDR325t_C905), from lines 218, 219, 220, 221 -/
def T_CIDR325C905 : Table where
  nps := [d 14 0, d 16 0, d 18 0, d 20 0, d 24 0, d 30 0, d 36 0, d 42 0, d 48 0]
  di := [d 36468 2, d 41482 2, d 46482 2, d 51482 2, d 61496 2, d 76276 2, d 91296 2, d 106076 2, d 12109 1]
  od := [d 3886 1, d 442 0, d 4953 1, d 5486 1, d 6553 1, d 8128 1, d 9728 1, d 11303 1, d 12903 1]
  t := [d 1196 2, d 1359 2, d 1524 2, d 1689 2, d 2017 2, d 2502 2, d 2992 2, d 3477 2, d 397 1]

/-- piping.py:531: schedule "CIDR25C905" = (NPSCIDR25_C905, SCIDR25i_C905, SCIDR25o_C905, SCIDR25t_C905), from lines 213, 214, 215, 216 -/
def T_CIDR25C905 : Table where
  nps := [d 14 0, d 16 0, d 18 0, d 20 0, d 24 0, d 30 0, d 36 0, d 42 0, d 48 0]
  di := [d 35752 2, d 40664 2, d 45568 2, d 5047 1, d 60288 2, d 74778 2, d 89498 2, d 103988 2, d 118708 2]
  od := [d 3886 1, d 442 0, d 4953 1, d 5486 1, d 6553 1, d 8128 1, d 9728 1, d 11303 1, d 12903 1]
  t := [d 1554 2, d 1768 2, d 1981 2, d 2195 2, d 2621 2, d 3251 2, d 3891 2, d 4521 2, d 5161 2]

/-- piping.py:532: schedule "CIDR21C905" = (NPSCIDR21_C905, SCIDR21i_C905, SCIDR21o_C905, SCIDR21t_C905), from lines 208, 209, 210, 211 -/
def T_CIDR21C905 : Table where
  nps := [d 14 0, d 16 0, d 18 0, d 20 0, d 24 0, d 30 0, d 36 0]
  di := [d 35158 2, d 3999 1, d 4481 1, d 49632 2, d 59286 2, d 73538 2, d 88014 2]
  od := [d 3886 1, d 442 0, d 4953 1, d 5486 1, d 6553 1, d 8128 1, d 9728 1]
  t := [d 1851 2, d 2105 2, d 236 1, d 2614 2, d 3122 2, d 3871 2, d 4633 2]

/-- piping.py:533: schedule "CIDR18C905" = (NPSCIDR18_C905, SCIDR18i_C905, SCIDR18o_C905, SCIDR18t_C905), from lines 203, 204, 205, 206 -/
def T_CIDR18C905 : Table where
  nps := [d 14 0, d 16 0, d 18 0, d 20 0, d 24 0, d 30 0]
  di := [d 34542 2, d 39288 2, d 44028 2, d 48764 2, d 5825 1, d 72248 2]
  od := [d 3886 1, d 442 0, d 4953 1, d 5486 1, d 6553 1, d 8128 1]
  t := [d 2159 2, d 2456 2, d 2751 2, d 3048 2, d 364 1, d 4516 2]

/-- piping.py:534: schedule "CIDR14C905" = (NPSCIDR14_C905, SCIDR14i_C905, SCIDR14o_C905, SCIDR14t_C905), from lines 198, 199, 200, 201 -/
def T_CIDR14C905 : Table where
  nps := [d 14 0, d 16 0, d 18 0]
  di := [d 33308 2, d 37886 2, d 42454 2]
  od := [d 3886 1, d 442 0, d 4953 1]
  t := [d 2776 2, d 3157 2, d 3538 2]

/-- piping.py:536: schedule "IPSDR21" = (NPSIPSDR21_C905, SIPSDR21i_C905, SIPSDR21o_C905, SIPSDR21t_C905), from lines 233, 234, 236, 237 -/
def T_IPSDR21 : Table where
  nps := [d 14 0, d 16 0, d 18 0, d 20 0, d 24 0, d 30 0, d 36 0]
  di := [d 32176 2, d 3677 1, d 41366 2, d 45964 2, d 55154 2, d 68946 2, d 82732 2]
  od := [d 3556 1, d 4064 1, d 4572 1, d 508 0, d 6096 1, d 762 0, d 9144 1]
  t := [d 1692 2, d 1935 2, d 2177 2, d 2418 2, d 2903 2, d 3627 2, d 4354 2]

/-- piping.py:537: schedule "IPSDR26" = (NPSIPSDR26_C905, SIPSDR26i_C905, SIPSDR26o_C905, SIPSDR26t_C905), from lines 233, 234, 239, 240 -/
def T_IPSDR26 : Table where
  nps := [d 14 0, d 16 0, d 18 0, d 20 0, d 24 0, d 30 0, d 36 0]
  di := [d 32826 2, d 37516 2, d 42204 2, d 46894 2, d 56272 2, d 70338 2, d 84404 2]
  od := [d 3556 1, d 4064 1, d 4572 1, d 508 0, d 6096 1, d 762 0, d 9144 1]
  t := [d 1367 2, d 1562 2, d 1758 2, d 1953 2, d 2344 2, d 2931 2, d 3518 2]

/-- piping.py:538: schedule "IPSDR325" = (NPSIPSDR325_C905, SIPSDR325i_C905, SIPSDR325o_C905, SIPSDR325t_C905), from lines 233, 234, 242, 243 -/
def T_IPSDR325 : Table where
  nps := [d 14 0, d 16 0, d 18 0, d 20 0, d 24 0, d 30 0, d 36 0]
  di := [d 33376 2, d 3814 1, d 42906 2, d 47676 2, d 5721 1, d 71512 2, d 85812 2]
  od := [d 3556 1, d 4064 1, d 4572 1, d 508 0, d 6096 1, d 762 0, d 9144 1]
  t := [d 1092 2, d 125 1, d 1407 2, d 1562 2, d 1875 2, d 2344 2, d 2814 2]

/-- piping.py:539: schedule "IPSDR41" = (NPSIPSDR41_C905, SIPSDR41i_C905, SIPSDR41o_C905, SIPSDR41t_C905), from lines 233, 234, 245, 246 -/
def T_IPSDR41 : Table where
  nps := [d 14 0, d 16 0, d 18 0, d 20 0, d 24 0, d 30 0, d 36 0]
  di := [d 33828 2, d 38658 2, d 4349 1, d 4832 1, d 57988 2, d 72482 2, d 8698 1]
  od := [d 3556 1, d 4064 1, d 4572 1, d 508 0, d 6096 1, d 762 0, d 9144 1]
  t := [d 866 2, d 991 2, d 1115 2, d 124 1, d 1486 2, d 1859 2, d 223 1]

/-- piping.py:541: schedule "PS115F679" = (NPS_F679, SPS115i_F679, SPS115o_F679, SPS115t_F679), from lines 249, 250, 258, 259 -/
def T_PS115F679 : Table where
  nps := [d 18 0, d 21 0, d 24 0, d 27 0, d 30 0, d 36 0, d 42 0, d 48 0, d 54 0, d 60 0]
  di := [d 4409186 4, d 519811 3, d 584835 3, d 6591046 4, d 7544816 4, d 9030716 4, d 10492232 4, d 11977624 4, d 13571728 4, d 1452626 3]
  od := [d 4750054 4, d 5599938 4, d 6299962 4, d 7100062 4, d 8128 1, d 97282 2, d 11303 1, d 129032 2, d 1462024 3, d 1564894 3]
  t := [d 170434 4, d 200914 4, d 225806 4, d 254508 4, d 291592 4, d 348742 4, d 405384 4, d 462788 4, d 524256 4, d 56134 3]

/-- piping.py:542: schedule "PS75F679" = (NPS_F679, SPS75i_F679, SPS75o_F679, SPS75t_F679), from lines 249, 250, 255, 256 -/
def T_PS75F679 : Table where
  nps := [d 18 0, d 21 0, d 24 0, d 27 0, d 30 0, d 36 0, d 42 0, d 48 0, d 54 0, d 60 0]
  di := [d 4453382 4, d 5249926 4, d 5906262 4, d 665607 3, d 762 0, d 9120124 4, d 10596372 4, d 12096496 4, d 13706348 4, d 14670532 4]
  od := [d 4750054 4, d 5599938 4, d 6299962 4, d 7100062 4, d 8128 1, d 97282 2, d 11303 1, d 129032 2, d 1462024 3, d 1564894 3]
  t := [d 148336 4, d 175006 4, d 19685 3, d 221996 4, d 254 1, d 304038 4, d 353314 4, d 403352 4, d 456946 4, d 489204 4]

/-- piping.py:543: schedule "PS46F679" = (NPS_F679, SPS46i_F679, SPS46o_F679, SPS46t_F679), from lines 249, 250, 252, 253 -/
def T_PS46F679 : Table where
  nps := [d 18 0, d 21 0, d 24 0, d 27 0, d 30 0, d 36 0, d 42 0, d 48 0, d 54 0, d 60 0]
  di := [d 4496562 4, d 5301234 4, d 5964174 4, d 6721602 4, d 7694676 4, d 9209532 4, d 10700004 4, d 1221486 3, d 1384046 3, d 14814296 4]
  od := [d 4750054 4, d 5599938 4, d 6299962 4, d 7100062 4, d 8128 1, d 97282 2, d 11303 1, d 129032 2, d 1462024 3, d 1564894 3]
  t := [d 126746 4, d 149352 4, d 167894 4, d 18923 3, d 216662 4, d 259334 4, d 301498 4, d 34417 3, d 38989 3, d 417322 4]

/-- piping.py:545: schedule "PVCD2665" = (NPS_D2665, SPVCi_D2665, SPVCo_D2665, SPVCt_D2665), from lines 262, 263, 264, 265 -/
def T_PVCD2665 : Table where
  nps := [d 125 2, d 15 1, d 2 0, d 3 0, d 4 0, d 6 0, d 8 0, d 10 0, d 12 0, d 14 0, d 16 0, d 18 0, d 20 0, d 24 0]
  di := [d 35052 3, d 40894 3, d 525018 4, d 779272 4, d 1022604 4, d 154051 3, d 2027174 4, d 254508 3, d 3032252 4, d 333756 3, d 381 0,
    d 4286504 4, d 4778756 4, d 5747004 4]
  od := [d 42164 3, d 4826 2, d 60325 3, d 889 1, d 1143 1, d 168275 3, d 219075 3, d 27305 2, d 32385 2, d 3556 1, d 4064 1, d 4572 1, d 508 0,
    d 6096 1]
  t := [d 3556 3, d 3683 3, d 39116 4, d 54864 4, d 60198 4, d 7112 3, d 81788 4, d 9271 3, d 103124 4, d 10922 3, d 127 1, d 142748 4, d 150622 4,
    d 174498 4]

/-- piping.py:547: schedule "40D1785" = (NPS_D1785, S40i_D1785, S40o_D1785, S40t_D1785), from lines 268, 269, 271, 272 -/
def T_40D1785 : Table where
  nps := [d 125 3, d 25 2, d 375 3, d 5 1, d 75 2, d 1 0, d 125 2, d 15 1, d 2 0, d 25 1, d 3 0, d 35 1, d 4 0, d 5 0, d 6 0, d 8 0, d 10 0, d 12 0,
    d 14 0, d 16 0, d 18 0, d 20 0, d 24 0]
  di := [d 68326 4, d 92456 4, d 125222 4, d 157988 4, d 209296 4, d 266446 4, d 35052 3, d 40894 3, d 525018 4, d 627126 4, d 779272 4, d 901192 4,
    d 1022604 4, d 1281938 4, d 154051 3, d 2027174 4, d 254508 3, d 3032252 4, d 3334004 4, d 381 0, d 4286504 4, d 4778756 4, d 5747004 4]
  od := [d 10287 3, d 13716 3, d 17145 3, d 21336 3, d 2667 2, d 33401 3, d 42164 3, d 4826 2, d 60325 3, d 73025 3, d 889 1, d 1016 1, d 1143 1,
    d 1413002 4, d 168275 3, d 219075 3, d 27305 2, d 32385 2, d 3556 1, d 4064 1, d 4572 1, d 508 0, d 6096 1]
  t := [d 17272 4, d 22352 4, d 23114 4, d 27686 4, d 28702 4, d 33782 4, d 3556 3, d 3683 3, d 39116 4, d 51562 4, d 54864 4, d 57404 4, d 60198 4,
    d 65532 4, d 7112 3, d 81788 4, d 9271 3, d 103124 4, d 110998 4, d 127 1, d 142748 4, d 150622 4, d 174498 4]

/-- piping.py:548: schedule "80D1785" = (NPS_D1785, S80i_D1785, S80o_D1785, S80t_D1785), from lines 268, 269, 274, 275 -/
def T_80D1785 : Table where
  nps := [d 125 3, d 25 2, d 375 3, d 5 1, d 75 2, d 1 0, d 125 2, d 15 1, d 2 0, d 25 1, d 3 0, d 35 1, d 4 0, d 5 0, d 6 0, d 8 0, d 10 0, d 12 0,
    d 14 0, d 16 0, d 18 0, d 20 0, d 24 0]
  di := [d 5461 3, d 76708 4, d 107442 4, d 138684 4, d 188468 4, d 243078 4, d 324612 4, d 381 1, d 492506 4, d 590042 4, d 7366 2, d 854456 4,
    d 971804 4, d 1222502 4, d 1463294 4, d 193675 3, d 2429256 4, d 2889504 4, d 3175 1, d 3635756 4, d 4096004 4, d 4556252 4, d 5477256 4]
  od := [d 10287 3, d 13716 3, d 17145 3, d 21336 3, d 2667 2, d 33401 3, d 42164 3, d 4826 2, d 60325 3, d 73025 3, d 889 1, d 1016 1, d 1143 1,
    d 1413002 4, d 168275 3, d 219075 3, d 27305 2, d 32385 2, d 3556 1, d 4064 1, d 4572 1, d 508 0, d 6096 1]
  t := [d 2413 3, d 30226 4, d 32004 4, d 37338 4, d 39116 4, d 45466 4, d 48514 4, d 508 2, d 55372 4, d 70104 4, d 762 2, d 80772 4, d 85598 4,
    d 9525 3, d 109728 4, d 127 1, d 150622 4, d 174498 4, d 1905 2, d 214122 4, d 237998 4, d 261874 4, d 309372 4]

/-- piping.py:549: schedule "120D1785" = (NPS120_D1785, S120i_D1785, S120o_D1785, S120t_D1785), from lines 277, 278, 279, 280 -/
def T_120D1785 : Table where
  nps := [d 5 1, d 75 2, d 1 0, d 125 2, d 15 1, d 2 0, d 25 1, d 3 0, d 35 1, d 4 0, d 5 0, d 6 0, d 8 0, d 10 0, d 12 0]
  di := [d 127 1, d 18034 3, d 23241 3, d 31242 3, d 3683 2, d 47625 3, d 57785 3, d 7112 2, d 8382 2, d 921004 4, d 1159002 4, d 1397254 4,
    d 1826006 4, d 2302256 4, d 27305 2]
  od := [d 21336 3, d 2667 2, d 33401 3, d 42164 3, d 4826 2, d 60325 3, d 73025 3, d 889 1, d 1016 1, d 1143 1, d 1413002 4, d 168275 3, d 219075 3,
    d 27305 2, d 32385 2]
  t := [d 4318 3, d 4318 3, d 508 2, d 5461 3, d 5715 3, d 635 2, d 762 2, d 889 2, d 889 2, d 110998 4, d 127 1, d 142748 4, d 182372 4, d 214122 4,
    d 254 1]

/-- piping.py:551: schedule "DR135D2241" = (NPSDR135_D2241, SDR135i_D2241, SDR135o_D2241, SDR135t_D2241), from lines 317, 318, 319, 320 -/
def T_DR135D2241 : Table where
  nps := [d 125 3, d 25 2, d 375 3, d 5 1, d 75 2, d 1 0, d 125 2, d 15 1, d 2 0, d 25 1, d 3 0, d 35 1, d 4 0, d 5 0, d 6 0]
  di := [d 7239 3, d 10668 3, d 14097 3, d 181864 4, d 227076 4, d 284734 4, d 359156 4, d 410972 4, d 513842 4, d 622046 4, d 757428 4, d 865632 4,
    d 973836 4, d 1203706 4, d 1433322 4]
  od := [d 10287 3, d 13716 3, d 17145 3, d 21336 3, d 2667 2, d 33401 3, d 42164 3, d 4826 2, d 60325 3, d 73025 3, d 889 1, d 1016 1, d 1143 1,
    d 1413002 4, d 168275 3]
  t := [d 1524 3, d 1524 3, d 1524 3, d 15748 4, d 19812 4, d 24638 4, d 31242 4, d 35814 4, d 44704 4, d 54102 4, d 65786 4, d 75184 4, d 84582 4,
    d 104648 4, d 124714 4]

/-- piping.py:552: schedule "DR17D2241" = (NPSDR17_D2241, SDR17i_D2241, SDR17o_D2241, SDR17t_D2241), from lines 312, 313, 314, 315 -/
def T_DR17D2241 : Table where
  nps := [d 75 2, d 1 0, d 125 2, d 15 1, d 2 0, d 25 1, d 3 0, d 35 1, d 4 0, d 5 0, d 6 0, d 8 0, d 10 0, d 12 0, d 14 0, d 16 0, d 18 0, d 20 0,
    d 24 0, d 30 0, d 36 0]
  di := [d 235204 4, d 294894 4, d 371856 4, d 425704 4, d 53213 3, d 644398 4, d 784352 4, d 89662 3, d 100838 3, d 1246886 4, d 148463 3,
    d 1932686 4, d 2409444 4, d 28575 2, d 3137916 4, d 3585972 4, d 4034028 4, d 4482592 4, d 5378704 4, d 672338 3, d 8068056 4]
  od := [d 2667 2, d 33401 3, d 42164 3, d 4826 2, d 60325 3, d 73025 3, d 889 1, d 1016 1, d 1143 1, d 1413002 4, d 168275 3, d 219075 3, d 27305 2,
    d 32385 2, d 3556 1, d 4064 1, d 4572 1, d 508 0, d 6096 1, d 762 0, d 9144 1]
  t := [d 15748 4, d 19558 4, d 24892 4, d 28448 4, d 3556 3, d 42926 4, d 52324 4, d 5969 3, d 6731 3, d 83058 4, d 9906 3, d 129032 4, d 160528 4,
    d 1905 2, d 209042 4, d 239014 4, d 268986 4, d 298704 4, d 358648 4, d 44831 3, d 537972 4]

/-- piping.py:553: schedule "DR21D2241" = (NPSDR21_D2241, SDR21i_D2241, SDR21o_D2241, SDR21t_D2241), from lines 307, 308, 309, 310 -/
def T_DR21D2241 : Table where
  nps := [d 75 2, d 1 0, d 125 2, d 15 1, d 2 0, d 25 1, d 3 0, d 35 1, d 4 0, d 5 0, d 6 0, d 8 0, d 10 0, d 12 0, d 14 0, d 16 0, d 18 0, d 20 0,
    d 24 0, d 30 0, d 36 0]
  di := [d 23622 3, d 302006 4, d 381508 4, d 43688 3, d 545846 4, d 660654 4, d 804164 4, d 91948 3, d 1034288 4, d 1278382 4, d 1522222 4,
    d 198247 3, d 2470912 4, d 2930652 4, d 3217672 4, d 3676904 4, d 4136644 4, d 4596384 4, d 5515356 4, d 6894576 4, d 8273288 4]
  od := [d 2667 2, d 33401 3, d 42164 3, d 4826 2, d 60325 3, d 73025 3, d 889 1, d 1016 1, d 1143 1, d 1413002 4, d 168275 3, d 219075 3, d 27305 2,
    d 32385 2, d 3556 1, d 4064 1, d 4572 1, d 508 0, d 6096 1, d 762 0, d 9144 1]
  t := [d 1524 3, d 16002 4, d 20066 4, d 2286 3, d 28702 4, d 34798 4, d 42418 4, d 4826 3, d 54356 4, d 6731 3, d 80264 4, d 10414 3, d 129794 4,
    d 153924 4, d 169164 4, d 193548 4, d 217678 4, d 241808 4, d 290322 4, d 362712 4, d 435356 4]

/-- piping.py:554: schedule "DR26D2241" = (NPSDR26_D2241, SDR26i_D2241, SDR26o_D2241, SDR26t_D2241), from lines 302, 303, 304, 305 -/
def T_DR26D2241 : Table where
  nps := [d 1 0, d 125 2, d 15 1, d 2 0, d 25 1, d 3 0, d 35 1, d 4 0, d 5 0, d 6 0, d 8 0, d 10 0, d 12 0, d 14 0, d 16 0, d 18 0, d 20 0, d 24 0,
    d 30 0, d 36 0]
  di := [d 30353 3, d 389128 4, d 445516 4, d 557022 4, d 67437 3, d 82042 3, d 937768 4, d 1055116 4, d 130429 3, d 155321 3, d 2022094 4,
    d 2520696 4, d 298958 3, d 3282696 4, d 375158 3, d 4220464 4, d 4689348 4, d 5627116 4, d 7033768 4, d 844042 3]
  od := [d 33401 3, d 42164 3, d 4826 2, d 60325 3, d 73025 3, d 889 1, d 1016 1, d 1143 1, d 1413002 4, d 168275 3, d 219075 3, d 27305 2,
    d 32385 2, d 3556 1, d 4064 1, d 4572 1, d 508 0, d 6096 1, d 762 0, d 9144 1]
  t := [d 1524 3, d 16256 4, d 18542 4, d 23114 4, d 2794 3, d 3429 3, d 39116 4, d 43942 4, d 54356 4, d 6477 3, d 84328 4, d 104902 4, d 12446 3,
    d 136652 4, d 15621 3, d 175768 4, d 195326 4, d 234442 4, d 293116 4, d 35179 3]

/-- piping.py:555: schedule "DR325D2241" = (NPSDR325_D2241, SDR325i_D2241, SDR325o_D2241, SDR325t_D2241), from lines 297, 298, 299, 300 -/
def T_DR325D2241 : Table where
  nps := [d 125 2, d 15 1, d 2 0, d 25 1, d 3 0, d 35 1, d 4 0, d 5 0, d 6 0, d 8 0, d 10 0, d 12 0, d 14 0, d 16 0, d 18 0, d 20 0, d 24 0, d 30 0,
    d 36 0]
  di := [d 39116 3, d 45212 3, d 566166 4, d 685546 4, d 834136 4, d 953516 4, d 1072896 4, d 1326134 4, d 1579118 4, d 205613 3, d 2562352 4,
    d 3039364 4, d 333756 3, d 3814064 4, d 4290568 4, d 476758 3, d 5721096 4, d 7151116 4, d 8581136 4]
  od := [d 42164 3, d 4826 2, d 60325 3, d 73025 3, d 889 1, d 1016 1, d 1143 1, d 1413002 4, d 168275 3, d 219075 3, d 27305 2, d 32385 2, d 3556 1,
    d 4064 1, d 4572 1, d 508 0, d 6096 1, d 762 0, d 9144 1]
  t := [d 1524 3, d 1524 3, d 18542 4, d 22352 4, d 27432 4, d 31242 4, d 35052 4, d 43434 4, d 51816 4, d 6731 3, d 84074 4, d 99568 4, d 10922 3,
    d 124968 4, d 140716 4, d 15621 3, d 187452 4, d 234442 4, d 281432 4]

/-- piping.py:556: schedule "DR41D2241" = (NPSDR41_D2241, SDR41i_D2241, SDR41o_D2241, SDR41t_D2241), from lines 292, 293, 294, 295 -/
def T_DR41D2241 : Table where
  nps := [d 3 0, d 35 1, d 4 0, d 5 0, d 6 0, d 8 0, d 10 0, d 12 0, d 14 0, d 16 0, d 18 0, d 20 0, d 24 0, d 30 0, d 36 0]
  di := [d 84582 3, d 966216 4, d 108712 3, d 1343914 4, d 1600454 4, d 208407 3, d 2597404 4, d 3080512 4, d 3382772 4, d 386588 3, d 4348988 4,
    d 4832096 4, d 579882 3, d 7248144 4, d 8697976 4]
  od := [d 889 1, d 1016 1, d 1143 1, d 1413002 4, d 168275 3, d 219075 3, d 27305 2, d 32385 2, d 3556 1, d 4064 1, d 4572 1, d 508 0, d 6096 1,
    d 762 0, d 9144 1]
  t := [d 2159 3, d 24892 4, d 2794 3, d 34544 4, d 41148 4, d 5334 3, d 66548 4, d 78994 4, d 86614 4, d 9906 3, d 111506 4, d 123952 4, d 14859 3,
    d 185928 4, d 223012 4]

/-- piping.py:557: schedule "DR64D2241" = (NPSDR64_D2241, SDR64i_D2241, SDR64o_D2241, SDR64t_D2241), from lines 287, 288, 289, 290 -/
def T_DR64D2241 : Table where
  nps := [d 4 0, d 5 0, d 6 0, d 8 0, d 10 0, d 12 0]
  di := [d 110744 3, d 1368806 4, d 1629918 4, d 212217 3, d 2645156 4, d 3137408 4]
  od := [d 1143 1, d 1413002 4, d 168275 3, d 219075 3, d 27305 2, d 32385 2]
  t := [d 1778 3, d 22098 4, d 26416 4, d 3429 3, d 42672 4, d 50546 4]

/-- piping.py:559: schedule "DR21D2241CTS" = (NPSDR21_D2241CTS, SDR21i_D2241CTS, SDR21o_D2241CTS, SDR21t_D2241CTS), from lines 326, 327, 328, 329 -/
def T_DR21D2241CTS : Table where
  nps := [d 1 0, d 125 2, d 15 1, d 2 0]
  di := [d 25527 3, d 31623 3, d 373634 4, d 488442 4]
  od := [d 28575 3, d 34925 3, d 41275 3, d 53975 3]
  t := [d 1524 3, d 1651 3, d 19558 4, d 25654 4]

/-- piping.py:560: schedule "DR17D2241CTS" = (NPSDR17_D2241CTS, SDR17i_D2241CTS, SDR17o_D2241CTS, SDR17t_D2241CTS), from lines 331, 332, 333, 334 -/
def T_DR17D2241CTS : Table where
  nps := [d 75 2, d 1 0, d 125 2, d 15 1, d 2 0]
  di := [d 19177 3, d 252222 4, d 308102 4, d 363982 4, d 47625 3]
  od := [d 22225 3, d 28575 3, d 34925 3, d 41275 3, d 53975 3]
  t := [d 1524 3, d 16764 4, d 20574 4, d 24384 4, d 3175 3]

/-- piping.py:561: schedule "DR135D2241CTS" = (NPSDR135_D2241CTS, SDR135i_D2241CTS, SDR135o_D2241CTS, SDR135t_D2241CTS), from lines 336, 337, 338, 339 -/
def T_DR135D2241CTS : Table where
  nps := [d 5 1, d 75 2, d 1 0, d 125 2, d 15 1, d 2 0]
  di := [d 12827 3, d 18923 3, d 243586 4, d 297434 4, d 35179 3, d 459994 4]
  od := [d 15875 3, d 22225 3, d 28575 3, d 34925 3, d 41275 3, d 53975 3]
  t := [d 1524 3, d 1651 3, d 21082 4, d 25908 4, d 3048 3, d 39878 4]

/-- piping.py:562: schedule "DR11D2241CTS" = (NPSDR11_D2241CTS, SDR11i_D2241CTS, SDR11o_D2241CTS, SDR11t_D2241CTS), from lines 341, 342, 343, 344 -/
def T_DR11D2241CTS : Table where
  nps := [d 5 1, d 75 2, d 1 0, d 125 2, d 15 1, d 2 0]
  di := [d 12827 3, d 18161 3, d 233934 4, d 28575 3, d 337566 4, d 441706 4]
  od := [d 15875 3, d 22225 3, d 28575 3, d 34925 3, d 41275 3, d 53975 3]
  t := [d 1524 3, d 2032 3, d 25908 4, d 3175 3, d 37592 4, d 49022 4]

/-- piping.py:564: schedule "DR21D2241PIP" = (NPSDR21_D2241PIP, SDR21i_D2241PIP, SDR21o_D2241PIP, SDR21t_D2241PIP), from lines 379, 380, 381, 382 -/
def T_DR21D2241PIP : Table where
  nps := [d 15 0]
  di := [d 3516376 4]
  od := [d 38862 2]
  t := [d 184912 4]

/-- piping.py:565: schedule "DR26D2241PIP" = (NPSDR26_D2241PIP, SDR26i_D2241PIP, SDR26o_D2241PIP, SDR26t_D2241PIP), from lines 374, 375, 376, 377 -/
def T_DR26D2241PIP : Table where
  nps := [d 15 0, d 18 0, d 21 0, d 24 0, d 27 0]
  di := [d 3587496 4, d 4384802 4, d 5169154 4, d 581533 3, d 6553962 4]
  od := [d 38862 2, d 4750054 4, d 5599938 4, d 6299962 4, d 7100062 4]
  t := [d 149352 4, d 182626 4, d 215392 4, d 242316 4, d 27305 3]

/-- piping.py:566: schedule "DR325D2241PIP" = (NPSDR325_D2241PIP, SDR325i_D2241PIP, SDR325o_D2241PIP, SDR325t_D2241PIP), from lines 369, 370, 371, 372 -/
def T_DR325D2241PIP : Table where
  nps := [d 6 0, d 8 0, d 10 0, d 12 0, d 15 0, d 18 0, d 21 0, d 24 0, d 27 0]
  di := [d 1463548 4, d 1945132 4, d 2431288 4, d 2917444 4, d 3646932 4, d 4457954 4, d 5255514 4, d 5912358 4, d 6663182 4]
  od := [d 155956 3, d 207264 3, d 25908 2, d 310896 3, d 38862 2, d 4750054 4, d 5599938 4, d 6299962 4, d 7100062 4]
  t := [d 48006 4, d 63754 4, d 79756 4, d 95758 4, d 119634 4, d 14605 3, d 172212 4, d 193802 4, d 21844 3]

/-- piping.py:567: schedule "DR35D2241PIP" = (NPSDR35_D2241PIP, SDR35i_D2241PIP, SDR35o_D2241PIP, SDR35t_D2241PIP), from lines 364, 365, 366, 367 -/
def T_DR35D2241PIP : Table where
  nps := [d 15 0, d 18 0, d 21 0, d 24 0, d 27 0]
  di := [d 3664204 4, d 4478782 4, d 5279898 4, d 593979 3, d 669417 3]
  od := [d 38862 2, d 4750054 4, d 5599938 4, d 6299962 4, d 7100062 4]
  t := [d 110998 4, d 135636 4, d 16002 3, d 180086 4, d 202946 4]

/-- piping.py:568: schedule "DR41D2241PIP" = (NPSDR41_D2241PIP, SDR41i_D2241PIP, SDR41o_D2241PIP, SDR41t_D2241PIP), from lines 359, 360, 361, 362 -/
def T_DR41D2241PIP : Table where
  nps := [d 6 0, d 8 0, d 10 0, d 12 0, d 15 0, d 18 0, d 21 0, d 24 0, d 27 0]
  di := [d 148336 3, d 1971548 4, d 2464308 4, d 2957068 4, d 3696716 4, d 4518406 4, d 5326634 4, d 5992622 4, d 6753606 4]
  od := [d 155956 3, d 207264 3, d 25908 2, d 310896 3, d 38862 2, d 4750054 4, d 5599938 4, d 6299962 4, d 7100062 4]
  t := [d 381 2, d 50546 4, d 63246 4, d 75946 4, d 94742 4, d 115824 4, d 136652 4, d 15367 3, d 173228 4]

/-- piping.py:569: schedule "DR51D2241PIP" = (NPSDR51_D2241PIP, SDR51i_D2241PIP, SDR51o_D2241PIP, SDR51t_D2241PIP), from lines 354, 355, 356, 357 -/
def T_DR51D2241PIP : Table where
  nps := [d 6 0, d 8 0, d 10 0, d 12 0, d 15 0, d 18 0, d 21 0, d 24 0, d 27 0]
  di := [d 14986 2, d 199136 3, d 24892 2, d 298704 3, d 37338 2, d 4564126 4, d 5380482 4, d 6053074 4, d 6821678 4]
  od := [d 155956 3, d 207264 3, d 25908 2, d 310896 3, d 38862 2, d 4750054 4, d 5599938 4, d 6299962 4, d 7100062 4]
  t := [d 3048 3, d 4064 3, d 508 2, d 6096 3, d 762 2, d 92964 4, d 109728 4, d 123444 4, d 139192 4]

/-- piping.py:570: schedule "DR81D2241PIP" = (NPSDR81_D2241PIP, SDR81i_D2241PIP, SDR81o_D2241PIP, SDR81t_D2241PIP), from lines 349, 350, 351, 352 -/
def T_DR81D2241PIP : Table where
  nps := [d 6 0, d 8 0, d 10 0, d 12 0, d 15 0]
  di := [d 1520952 4, d 2021332 4, d 2526792 4, d 3032252 4, d 3790188 4]
  od := [d 155956 3, d 207264 3, d 25908 2, d 310896 3, d 38862 2]
  t := [d 19304 4, d 25654 4, d 32004 4, d 38354 4, d 48006 4]

/-- piping.py:572: schedule "S40F441IPS" = (NPS_F441, S40i_F441IPS, S40o_F441IPS, S40t_F441IPS), from lines 386, 389, 392, 394 -/
def T_S40F441IPS : Table where
  nps := [d 25 2, d 375 3, d 5 1, d 75 2, d 1 0, d 125 2, d 15 1, d 2 0, d 25 1, d 3 0, d 35 1, d 4 0, d 5 0, d 6 0, d 8 0, d 10 0, d 12 0, d 14 0,
    d 16 0]
  di := [d 92456 4, d 125222 4, d 157988 4, d 209296 4, d 266446 4, d 35052 3, d 40894 3, d 525018 4, d 627126 4, d 779272 4, d 901192 4,
    d 1022604 4, d 1281938 4, d 154051 3, d 2027174 4, d 254508 3, d 3032252 4, d 3334004 4, d 381 0]
  od := [d 13716 3, d 17145 3, d 21336 3, d 2667 2, d 33401 3, d 42164 3, d 4826 2, d 60325 3, d 73025 3, d 889 1, d 1016 1, d 1143 1, d 1413002 4,
    d 168275 3, d 219075 3, d 27305 2, d 32385 2, d 3556 1, d 4064 1]
  t := [d 22352 4, d 23114 4, d 27686 4, d 28702 4, d 33782 4, d 3556 3, d 3683 3, d 39116 4, d 51562 4, d 54864 4, d 57404 4, d 60198 4, d 65532 4,
    d 7112 3, d 81788 4, d 9271 3, d 103124 4, d 110998 4, d 127 1]

/-- piping.py:573: schedule "S80F441IPS" = (NPS_F441, S80i_F441IPS, S80o_F441IPS, S80t_F441IPS), from lines 386, 389, 397, 399 -/
def T_S80F441IPS : Table where
  nps := [d 25 2, d 375 3, d 5 1, d 75 2, d 1 0, d 125 2, d 15 1, d 2 0, d 25 1, d 3 0, d 35 1, d 4 0, d 5 0, d 6 0, d 8 0, d 10 0, d 12 0, d 14 0,
    d 16 0]
  di := [d 76708 4, d 107442 4, d 138684 4, d 188468 4, d 243078 4, d 324612 4, d 381 1, d 492506 4, d 590042 4, d 7366 2, d 854456 4, d 971804 4,
    d 1222502 4, d 1463294 4, d 193675 3, d 2429256 4, d 2889504 4, d 3175 1, d 3635756 4]
  od := [d 13716 3, d 17145 3, d 21336 3, d 2667 2, d 33401 3, d 42164 3, d 4826 2, d 60325 3, d 73025 3, d 889 1, d 1016 1, d 1143 1, d 1413002 4,
    d 168275 3, d 219075 3, d 27305 2, d 32385 2, d 3556 1, d 4064 1]
  t := [d 30226 4, d 32004 4, d 37338 4, d 39116 4, d 45466 4, d 48514 4, d 508 2, d 55372 4, d 70104 4, d 762 2, d 80772 4, d 85598 4, d 9525 3,
    d 109728 4, d 127 1, d 150622 4, d 174498 4, d 1905 2, d 214122 4]

/-- piping.py:574: schedule "S40F441SI" = (DN_F441, S40i_F441SI, S40o_F441SI, S40t_F441SI), from lines 387, 390, 393, 395 -/
def T_S40F441SI : Table where
  nps := [d 8 0, d 10 0, d 15 0, d 20 0, d 25 0, d 32 0, d 40 0, d 50 0, d 65 0, d 80 0, d 90 0, d 100 0, d 125 0, d 150 0, d 200 0, d 250 0,
    d 300 0, d 350 0, d 400 0]
  di := [d 922 2, d 1248 2, d 1576 2, d 2096 2, d 2664 2, d 3508 2, d 4094 2, d 5248 2, d 6268 2, d 7792 2, d 9012 2, d 10226 2, d 1282 1, d 15408 2,
    d 20274 2, d 25456 2, d 30328 2, d 3334 1, d 381 0]
  od := [d 137 1, d 171 1, d 213 1, d 267 1, d 334 1, d 422 1, d 483 1, d 603 1, d 73 0, d 889 1, d 1016 1, d 1143 1, d 1413 1, d 1683 1, d 2191 1,
    d 2731 1, d 3239 1, d 3556 1, d 4064 1]
  t := [d 224 2, d 231 2, d 277 2, d 287 2, d 338 2, d 356 2, d 368 2, d 391 2, d 516 2, d 549 2, d 574 2, d 602 2, d 655 2, d 711 2, d 818 2,
    d 927 2, d 1031 2, d 111 1, d 127 1]

/-- piping.py:575: schedule "S80F441SI" = (DN_F441, S80i_F441SI, S80o_F441SI, S80t_F441SI), from lines 387, 390, 398, 400 -/
def T_S80F441SI : Table where
  nps := [d 8 0, d 10 0, d 15 0, d 20 0, d 25 0, d 32 0, d 40 0, d 50 0, d 65 0, d 80 0, d 90 0, d 100 0, d 125 0, d 150 0, d 200 0, d 250 0,
    d 300 0, d 350 0, d 400 0]
  di := [d 766 2, d 107 1, d 1384 2, d 1888 2, d 243 1, d 325 1, d 3814 2, d 4922 2, d 5898 2, d 7366 2, d 8544 2, d 9718 2, d 12226 2, d 14636 2,
    d 1937 1, d 24298 2, d 289 0, d 3175 1, d 36412 2]
  od := [d 137 1, d 171 1, d 213 1, d 267 1, d 334 1, d 422 1, d 483 1, d 603 1, d 73 0, d 889 1, d 1016 1, d 1143 1, d 1413 1, d 1683 1, d 2191 1,
    d 2731 1, d 3239 1, d 3556 1, d 4064 1]
  t := [d 302 2, d 32 1, d 373 2, d 391 2, d 455 2, d 485 2, d 508 2, d 554 2, d 701 2, d 762 2, d 808 2, d 856 2, d 952 2, d 1097 2, d 127 1,
    d 1506 2, d 1745 2, d 1905 2, d 2114 2]

/-- piping.py:577: schedule "DR325F2619SI" = (NPSDR325_F2619, SDR325i_F2619SI, SDR325o_F2619SI, SDR325t_F2619SI), from lines 472, 474, 476, 478 -/
def T_DR325F2619SI : Table where
  nps := [d 4 0, d 5 0, d 6 0, d 8 0, d 10 0, d 12 0, d 14 0, d 16 0, d 18 0, d 20 0, d 22 0, d 24 0, d 26 0, d 28 0, d 30 0, d 32 0, d 34 0, d 36 0,
    d 42 0, d 48 0, d 54 0, d 63 0, d 65 0]
  di := [d 10728 2, d 1326 1, d 15792 2, d 20562 2, d 25623 2, d 30393 2, d 3337 1, d 3814 1, d 42906 2, d 47676 2, d 5244 1, d 5721 1, d 61976 2,
    d 66742 2, d 71512 2, d 76276 2, d 81046 2, d 85812 2, d 100116 2, d 114416 2, d 128718 2, d 150176 2, d 15494 1]
  od := [d 1143 1, d 1413 1, d 16828 2, d 21908 2, d 27305 2, d 32385 2, d 3556 1, d 4064 1, d 4572 1, d 508 0, d 5588 1, d 6096 1, d 6604 1,
    d 7112 1, d 762 0, d 8128 1, d 8636 1, d 9144 1, d 10668 1, d 12192 1, d 13716 1, d 16002 1, d 1651 0]
  t := [d 351 2, d 435 2, d 518 2, d 673 2, d 841 2, d 996 2, d 1095 2, d 125 1, d 1407 2, d 1562 2, d 172 1, d 1875 2, d 2032 2, d 2189 2, d 2344 2,
    d 2502 2, d 2657 2, d 2814 2, d 3282 2, d 3752 2, d 4221 2, d 4922 2, d 508 1]

/-- piping.py:578: schedule "DR26F2619SI" = (NPSDR26_F2619, SDR26i_F2619SI, SDR26o_F2619SI, SDR26t_F2619SI), from lines 464, 466, 468, 470 -/
def T_DR26F2619SI : Table where
  nps := [d 4 0, d 5 0, d 6 0, d 8 0, d 10 0, d 12 0, d 14 0, d 16 0, d 18 0, d 20 0, d 22 0, d 24 0, d 26 0, d 28 0, d 30 0, d 32 0, d 34 0, d 36 0,
    d 42 0, d 48 0, d 54 0, d 63 0, d 65 0]
  di := [d 10552 2, d 13044 2, d 15532 2, d 20222 2, d 25207 2, d 29895 2, d 32826 2, d 37516 2, d 42204 2, d 46756 2, d 51582 2, d 56272 2,
    d 6096 1, d 65648 2, d 70338 2, d 75026 2, d 79716 2, d 84404 2, d 98476 2, d 112542 2, d 126608 2, d 14771 1, d 1524 0]
  od := [d 1143 1, d 1413 1, d 16828 2, d 21908 2, d 27305 2, d 32385 2, d 3556 1, d 4064 1, d 4572 1, d 508 0, d 5588 1, d 6096 1, d 6604 1,
    d 7112 1, d 762 0, d 8128 1, d 8636 1, d 9144 1, d 10668 1, d 12192 1, d 13716 1, d 16002 1, d 1651 0]
  t := [d 439 2, d 543 2, d 648 2, d 843 2, d 1049 2, d 1245 2, d 1367 2, d 1562 2, d 1758 2, d 2022 2, d 2149 2, d 2344 2, d 254 1, d 2736 2,
    d 2931 2, d 3127 2, d 3322 2, d 3518 2, d 4102 2, d 4689 2, d 5276 2, d 6155 2, d 635 1]

/-- piping.py:579: schedule "DR21F2619SI" = (NPSDR21_F2619, SDR21i_F2619SI, SDR21o_F2619SI, SDR21t_F2619SI), from lines 456, 458, 460, 462 -/
def T_DR21F2619SI : Table where
  nps := [d 25 1, d 3 0, d 4 0, d 5 0, d 6 0, d 8 0, d 10 0, d 12 0, d 14 0, d 16 0, d 18 0, d 20 0, d 22 0, d 24 0, d 26 0, d 28 0, d 30 0, d 32 0,
    d 34 0, d 36 0, d 42 0, d 48 0, d 54 0, d 63 0, d 65 0]
  di := [d 6607 2, d 8042 2, d 10342 2, d 12784 2, d 15228 2, d 1982 1, d 24705 2, d 29301 2, d 32172 2, d 3677 1, d 41366 2, d 45964 2, d 50556 2,
    d 55154 2, d 5975 1, d 64348 2, d 6894 1, d 73538 2, d 78136 2, d 82732 2, d 9652 1, d 110308 2, d 1241 0, d 14478 1, d 149378 2]
  od := [d 7303 2, d 889 1, d 1143 1, d 1413 1, d 16828 2, d 21908 2, d 27305 2, d 32385 2, d 3556 1, d 4064 1, d 4572 1, d 508 0, d 5588 1,
    d 6096 1, d 6604 1, d 7112 1, d 762 0, d 8128 1, d 8636 1, d 9144 1, d 10668 1, d 12192 1, d 13716 1, d 16002 1, d 1651 0]
  t := [d 348 2, d 424 2, d 544 2, d 673 2, d 8 0, d 1044 2, d 13 0, d 1542 2, d 1694 2, d 1935 2, d 2177 2, d 2418 2, d 2662 2, d 2903 2, d 3145 2,
    d 3386 2, d 363 1, d 3871 2, d 4112 2, d 4354 2, d 508 1, d 5806 2, d 653 1, d 762 1, d 7861 2]

/-- piping.py:580: schedule "DR17F2619SI" = (NPSDR17_F2619, SDR17i_F2619SI, SDR17o_F2619SI, SDR17t_F2619SI), from lines 448, 450, 452, 454 -/
def T_DR17F2619SI : Table where
  nps := [d 2 0, d 25 1, d 3 0, d 4 0, d 5 0, d 6 0, d 8 0, d 10 0, d 12 0, d 14 0, d 16 0, d 18 0, d 20 0, d 22 0, d 24 0, d 26 0, d 28 0, d 30 0,
    d 32 0, d 34 0, d 36 0, d 42 0, d 48 0, d 54 0]
  di := [d 5321 2, d 6445 2, d 7844 2, d 10084 2, d 12468 2, d 14846 2, d 19332 2, d 24095 2, d 28575 2, d 31374 2, d 3586 1, d 4034 1, d 44826 2,
    d 49306 2, d 53788 2, d 58272 2, d 62754 2, d 67234 2, d 7172 1, d 762 0, d 8068 1, d 94128 2, d 107574 2, d 121026 2]
  od := [d 6033 2, d 7303 2, d 889 1, d 1143 1, d 1413 1, d 16828 2, d 21908 2, d 27305 2, d 32385 2, d 3556 1, d 4064 1, d 4572 1, d 508 0,
    d 5588 1, d 6096 1, d 6604 1, d 7112 1, d 762 0, d 8128 1, d 8636 1, d 9144 1, d 10668 1, d 12192 1, d 13716 1]
  t := [d 356 2, d 429 2, d 523 2, d 673 2, d 831 2, d 991 2, d 1288 2, d 1605 2, d 1905 2, d 2093 2, d 239 1, d 269 1, d 2987 2, d 3287 2, d 3586 2,
    d 3884 2, d 4183 2, d 4483 2, d 478 1, d 508 1, d 538 1, d 6276 2, d 7173 2, d 8067 2]

/-- piping.py:581: schedule "DR135F2619SI" = (NPSDR135_F2619, SDR135i_F2619SI, SDR135o_F2619SI, SDR135t_F2619SI), from lines 440, 442, 444, 446 -/
def T_DR135F2619SI : Table where
  nps := [d 5 1, d 75 2, d 1 0, d 125 2, d 15 1, d 2 0, d 25 1, d 3 0, d 4 0, d 5 0, d 6 0, d 8 0, d 10 0, d 12 0, d 14 0, d 16 0, d 18 0, d 20 0,
    d 22 0, d 24 0, d 26 0, d 28 0, d 30 0, d 32 0, d 34 0, d 36 0, d 42 0]
  di := [d 1818 2, d 2271 2, d 2848 2, d 3592 2, d 411 1, d 5139 2, d 6221 2, d 7574 2, d 9738 2, d 12036 2, d 14334 2, d 18662 2, d 23261 2,
    d 27589 2, d 30292 2, d 3462 1, d 38948 2, d 43276 2, d 476 0, d 51928 2, d 56256 2, d 60584 2, d 64912 2, d 6924 1, d 73564 2, d 77892 2,
    d 90876 2]
  od := [d 2134 2, d 2667 2, d 334 1, d 4216 2, d 4826 2, d 6033 2, d 7303 2, d 889 1, d 1143 1, d 1413 1, d 16828 2, d 21908 2, d 27305 2,
    d 32385 2, d 3556 1, d 4064 1, d 4572 1, d 508 0, d 5588 1, d 6096 1, d 6604 1, d 7112 1, d 762 0, d 8128 1, d 8636 1, d 9144 1, d 10668 1]
  t := [d 158 2, d 198 2, d 246 2, d 312 2, d 358 2, d 447 2, d 541 2, d 658 2, d 846 2, d 1047 2, d 1247 2, d 1623 2, d 2022 2, d 2398 2, d 2634 2,
    d 301 1, d 3386 2, d 3762 2, d 414 1, d 4516 2, d 4892 2, d 5268 2, d 5644 2, d 602 1, d 6398 2, d 6774 2, d 7902 2]

/-- piping.py:582: schedule "DR11F2619SI" = (NPSDR11_F2619, SDR11i_F2619SI, SDR11o_F2619SI, SDR11t_F2619SI), from lines 432, 434, 436, 438 -/
def T_DR11F2619SI : Table where
  nps := [d 5 1, d 75 2, d 1 0, d 125 2, d 15 1, d 2 0, d 25 1, d 3 0, d 4 0, d 5 0, d 6 0, d 8 0, d 10 0, d 12 0, d 14 0, d 16 0, d 18 0, d 20 0,
    d 22 0, d 24 0, d 26 0, d 28 0, d 30 0, d 32 0, d 34 0, d 36 0]
  di := [d 1748 2, d 2185 2, d 273 1, d 3448 2, d 3948 2, d 4935 2, d 5977 2, d 7274 2, d 9352 2, d 1156 1, d 1377 1, d 17926 2, d 22341 2,
    d 26497 2, d 29094 2, d 33248 2, d 3741 1, d 41564 2, d 4572 1, d 49876 2, d 5403 1, d 58674 2, d 62346 2, d 66502 2, d 70658 2, d 74814 2]
  od := [d 2134 2, d 2667 2, d 334 1, d 4216 2, d 4826 2, d 6033 2, d 7303 2, d 889 1, d 1143 1, d 1413 1, d 16828 2, d 21908 2, d 27305 2,
    d 32385 2, d 3556 1, d 4064 1, d 4572 1, d 508 0, d 5588 1, d 6096 1, d 6604 1, d 7112 1, d 762 0, d 8128 1, d 8636 1, d 9144 1]
  t := [d 193 2, d 241 2, d 305 2, d 384 2, d 439 2, d 549 2, d 663 2, d 808 2, d 1039 2, d 1285 2, d 1529 2, d 1991 2, d 2482 2, d 2944 2, d 3233 2,
    d 3696 2, d 4155 2, d 4618 2, d 508 1, d 5542 2, d 6005 2, d 6223 2, d 6927 2, d 7389 2, d 7851 2, d 8313 2]

/-- piping.py:583: schedule "DR9F2619SI" = (NPSDR9_F2619, SDR9i_F2619SI, SDR9o_F2619SI, SDR9t_F2619SI), from lines 424, 426, 428, 430 -/
def T_DR9F2619SI : Table where
  nps := [d 5 1, d 75 2, d 1 0, d 125 2, d 15 1, d 2 0, d 25 1, d 3 0, d 4 0, d 5 0, d 6 0, d 8 0, d 10 0, d 12 0, d 14 0, d 16 0, d 18 0, d 20 0,
    d 22 0, d 24 0, d 26 0, d 28 0, d 30 0]
  di := [d 1662 2, d 2073 2, d 2598 2, d 3282 2, d 3754 2, d 4691 2, d 5683 2, d 6914 2, d 889 1, d 1099 1, d 1309 1, d 17042 2, d 21239 2,
    d 25187 2, d 27656 2, d 31608 2, d 3556 1, d 39512 2, d 43464 2, d 47412 2, d 51364 2, d 55316 2, d 59268 2]
  od := [d 2134 2, d 2667 2, d 334 1, d 4216 2, d 4826 2, d 6033 2, d 7303 2, d 889 1, d 1143 1, d 1413 1, d 16828 2, d 21908 2, d 27305 2,
    d 32385 2, d 3556 1, d 4064 1, d 4572 1, d 508 0, d 5588 1, d 6096 1, d 6604 1, d 7112 1, d 762 0]
  t := [d 236 2, d 297 2, d 371 2, d 467 2, d 536 2, d 671 2, d 81 1, d 988 2, d 127 1, d 157 1, d 1869 2, d 2433 2, d 3033 2, d 3599 2, d 3952 2,
    d 4516 2, d 508 1, d 5644 2, d 6208 2, d 6774 2, d 7338 2, d 7902 2, d 8466 2]

/-- piping.py:584: schedule "DR73F2619SI" = (NPSDR73_F2619, SDR73i_F2619SI, SDR73o_F2619SI, SDR73t_F2619SI), from lines 416, 418, 420, 422 -/
def T_DR73F2619SI : Table where
  nps := [d 5 1, d 75 2, d 1 0, d 125 2, d 15 1, d 2 0, d 25 1, d 3 0, d 4 0, d 5 0, d 6 0, d 8 0, d 10 0, d 12 0, d 14 0, d 16 0, d 18 0, d 20 0,
    d 22 0, d 24 0]
  di := [d 155 1, d 1935 2, d 2426 2, d 3062 2, d 3506 2, d 4381 2, d 5303 2, d 6456 2, d 83 0, d 10258 2, d 12216 2, d 15904 2, d 19823 2,
    d 23511 2, d 25816 2, d 29504 2, d 33192 2, d 3688 1, d 40568 2, d 44256 2]
  od := [d 2134 2, d 2667 2, d 334 1, d 4216 2, d 4826 2, d 6033 2, d 7303 2, d 889 1, d 1143 1, d 1413 1, d 16828 2, d 21908 2, d 27305 2,
    d 32385 2, d 3556 1, d 4064 1, d 4572 1, d 508 0, d 5588 1, d 6096 1]
  t := [d 292 2, d 366 2, d 457 2, d 577 2, d 66 1, d 826 2, d 10 0, d 1217 2, d 1565 2, d 1936 2, d 2306 2, d 3002 2, d 3741 2, d 4437 2, d 4872 2,
    d 5568 2, d 6264 2, d 696 1, d 7656 2, d 8352 2]

/-- piping.py:585: schedule "DR7F2619SI" = (NPSDR7_F2619, SDR7i_F2619SI, SDR7o_F2619SI, SDR7t_F2619SI), from lines 408, 410, 412, 414 -/
def T_DR7F2619SI : Table where
  nps := [d 5 1, d 75 2, d 1 0, d 125 2, d 15 1, d 2 0, d 25 1, d 3 0, d 4 0, d 5 0, d 6 0, d 8 0, d 10 0, d 12 0, d 14 0, d 16 0, d 18 0, d 20 0,
    d 22 0, d 24 0]
  di := [d 1524 2, d 1905 2, d 2384 2, d 3012 2, d 345 1, d 4311 2, d 5217 2, d 635 1, d 8164 2, d 10092 2, d 12022 2, d 1565 1, d 19503 2,
    d 23135 2, d 254 0, d 29028 2, d 3266 1, d 36286 2, d 39914 2, d 4354 1]
  od := [d 2134 2, d 2667 2, d 334 1, d 4216 2, d 4826 2, d 6033 2, d 7303 2, d 889 1, d 1143 1, d 1413 1, d 16828 2, d 21908 2, d 27305 2,
    d 32385 2, d 3556 1, d 4064 1, d 4572 1, d 508 0, d 5588 1, d 6096 1]
  t := [d 305 2, d 381 2, d 478 2, d 602 2, d 688 2, d 861 2, d 1043 2, d 127 1, d 1633 2, d 2019 2, d 2403 2, d 3129 2, d 3901 2, d 4625 2, d 508 1,
    d 5806 2, d 653 1, d 7257 2, d 7983 2, d 871 1]

/-- piping.py:587: schedule "DR325F2619IPS" = (NPSDR325_F2619, SDR325i_F2619IPS, SDR325o_F2619IPS, SDR325t_F2619IPS), from lines 472, 473, 475, 477 -/
def T_DR325F2619IPS : Table where
  nps := [d 4 0, d 5 0, d 6 0, d 8 0, d 10 0, d 12 0, d 14 0, d 16 0, d 18 0, d 20 0, d 22 0, d 24 0, d 26 0, d 28 0, d 30 0, d 32 0, d 34 0, d 36 0,
    d 42 0, d 48 0, d 54 0, d 63 0, d 65 0]
  di := [d 1072896 4, d 1326134 4, d 1579118 4, d 205613 3, d 2562352 4, d 3039364 4, d 3337052 4, d 3814064 4, d 4290568 4, d 476758 3, d 5244084 4,
    d 5721096 4, d 61976 2, d 6674104 4, d 7151116 4, d 762762 3, d 8104632 4, d 8581136 4, d 10011664 4, d 11441684 4, d 12871704 4, d 15017496 4,
    d 15494 1]
  od := [d 1143 1, d 1413002 4, d 168275 3, d 219075 3, d 27305 2, d 32385 2, d 3556 1, d 4064 1, d 4572 1, d 508 0, d 5588 1, d 6096 1, d 6604 1,
    d 7112 1, d 762 0, d 8128 1, d 8636 1, d 9144 1, d 10668 1, d 12192 1, d 13716 1, d 16002 1, d 1651 0]
  t := [d 35052 4, d 43434 4, d 51816 4, d 6731 3, d 84074 4, d 99568 4, d 109474 4, d 124968 4, d 140716 4, d 15621 3, d 171958 4, d 187452 4,
    d 2032 2, d 218948 4, d 234442 4, d 25019 3, d 265684 4, d 281432 4, d 328168 4, d 375158 4, d 422148 4, d 492252 4, d 508 1]

/-- piping.py:588: schedule "DR26F2619IPS" = (NPSDR26_F2619, SDR26i_F2619IPS, SDR26o_F2619IPS, SDR26t_F2619IPS), from lines 464, 465, 467, 469 -/
def T_DR26F2619IPS : Table where
  nps := [d 4 0, d 5 0, d 6 0, d 8 0, d 10 0, d 12 0, d 14 0, d 16 0, d 18 0, d 20 0, d 22 0, d 24 0, d 26 0, d 28 0, d 30 0, d 32 0, d 34 0, d 36 0,
    d 42 0, d 48 0, d 54 0, d 63 0, d 65 0]
  di := [d 1055116 4, d 130429 3, d 155321 3, d 2022094 4, d 2520696 4, d 298958 3, d 3282696 4, d 375158 3, d 4220464 4, d 4689348 4, d 5158232 4,
    d 5627116 4, d 6096 1, d 6564884 4, d 7033768 4, d 7502652 4, d 7971536 4, d 844042 3, d 984758 3, d 11254232 4, d 12660884 4, d 14771116 4,
    d 1524 0]
  od := [d 1143 1, d 1413002 4, d 168275 3, d 219075 3, d 27305 2, d 32385 2, d 3556 1, d 4064 1, d 4572 1, d 508 0, d 5588 1, d 6096 1, d 6604 1,
    d 7112 1, d 762 0, d 8128 1, d 8636 1, d 9144 1, d 10668 1, d 12192 1, d 13716 1, d 16002 1, d 1651 0]
  t := [d 43942 4, d 54356 4, d 6477 3, d 84328 4, d 104902 4, d 12446 3, d 136652 4, d 15621 3, d 175768 4, d 195326 4, d 214884 4, d 234442 4,
    d 254 1, d 273558 4, d 293116 4, d 312674 4, d 332232 4, d 35179 3, d 41021 3, d 468884 4, d 527558 4, d 615442 4, d 635 1]

/-- piping.py:589: schedule "DR21F2619IPS" = (NPSDR21_F2619, SDR21i_F2619IPS, SDR21o_F2619IPS, SDR21t_F2619IPS), from lines 456, 457, 459, 461 -/
def T_DR21F2619IPS : Table where
  nps := [d 25 1, d 3 0, d 4 0, d 5 0, d 6 0, d 8 0, d 10 0, d 12 0, d 14 0, d 16 0, d 18 0, d 20 0, d 22 0, d 24 0, d 26 0, d 28 0, d 30 0, d 32 0,
    d 34 0, d 36 0, d 42 0, d 48 0, d 54 0, d 63 0, d 65 0]
  di := [d 660654 4, d 804164 4, d 1034288 4, d 1278382 4, d 152273 3, d 1981962 4, d 2470404 4, d 2930144 4, d 3217164 4, d 3676904 4, d 4136644 4,
    d 4596384 4, d 5055616 4, d 5515356 4, d 5975096 4, d 6434836 4, d 6894068 4, d 7353808 4, d 7813548 4, d 8273288 4, d 9652 1, d 11030712 4,
    d 12409932 4, d 14478 1, d 1493774 3]
  od := [d 73025 3, d 889 1, d 1143 1, d 1413002 4, d 168275 3, d 219075 3, d 27305 2, d 32385 2, d 3556 1, d 4064 1, d 4572 1, d 508 0, d 5588 1,
    d 6096 1, d 6604 1, d 7112 1, d 762 0, d 8128 1, d 8636 1, d 9144 1, d 10668 1, d 12192 1, d 13716 1, d 16002 1, d 1651 0]
  t := [d 34798 4, d 42418 4, d 54356 4, d 6731 3, d 8001 3, d 104394 4, d 130048 4, d 154178 4, d 169418 4, d 193548 4, d 217678 4, d 241808 4,
    d 266192 4, d 290322 4, d 314452 4, d 338582 4, d 362966 4, d 387096 4, d 411226 4, d 435356 4, d 508 1, d 580644 4, d 653034 4, d 762 1,
    d 78613 3]

/-- piping.py:590: schedule "DR17F2619IPS" = (NPSDR17_F2619, SDR17i_F2619IPS, SDR17o_F2619IPS, SDR17t_F2619IPS), from lines 448, 449, 451, 453 -/
def T_DR17F2619IPS : Table where
  nps := [d 2 0, d 25 1, d 3 0, d 4 0, d 5 0, d 6 0, d 8 0, d 10 0, d 12 0, d 14 0, d 16 0, d 18 0, d 20 0, d 22 0, d 24 0, d 26 0, d 28 0, d 30 0,
    d 32 0, d 34 0, d 36 0, d 42 0, d 48 0, d 54 0]
  di := [d 53213 3, d 644398 4, d 784352 4, d 100838 3, d 1246886 4, d 148463 3, d 1933194 4, d 2409444 4, d 28575 2, d 3137408 4, d 3585972 4,
    d 4034028 4, d 4482592 4, d 4930648 4, d 5378704 4, d 5827268 4, d 6275324 4, d 672338 3, d 7171944 4, d 762 0, d 8068056 4, d 9412732 4,
    d 10757408 4, d 12102592 4]
  od := [d 60325 3, d 73025 3, d 889 1, d 1143 1, d 1413002 4, d 168275 3, d 219075 3, d 27305 2, d 32385 2, d 3556 1, d 4064 1, d 4572 1, d 508 0,
    d 5588 1, d 6096 1, d 6604 1, d 7112 1, d 762 0, d 8128 1, d 8636 1, d 9144 1, d 10668 1, d 12192 1, d 13716 1]
  t := [d 3556 3, d 42926 4, d 52324 4, d 6731 3, d 83058 4, d 9906 3, d 128778 4, d 160528 4, d 1905 2, d 209296 4, d 239014 4, d 268986 4,
    d 298704 4, d 328676 4, d 358648 4, d 388366 4, d 418338 4, d 44831 3, d 478028 4, d 508 1, d 537972 4, d 627634 4, d 717296 4, d 806704 4]

/-- piping.py:591: schedule "DR135F2619IPS" = (NPSDR135_F2619, SDR135i_F2619IPS, SDR135o_F2619IPS, SDR135t_F2619IPS), from lines 440, 441, 443, 445 -/
def T_DR135F2619IPS : Table where
  nps := [d 5 1, d 75 2, d 1 0, d 125 2, d 15 1, d 2 0, d 25 1, d 3 0, d 4 0, d 5 0, d 6 0, d 8 0, d 10 0, d 12 0, d 14 0, d 16 0, d 18 0, d 20 0,
    d 22 0, d 24 0, d 26 0, d 28 0, d 30 0, d 32 0, d 34 0, d 36 0, d 42 0]
  di := [d 181864 4, d 227076 4, d 284734 4, d 359156 4, d 410972 4, d 513842 4, d 622046 4, d 757428 4, d 973836 4, d 1203706 4, d 1433322 4,
    d 1866138 4, d 2326132 4, d 2758948 4, d 3029204 4, d 346202 3, d 3894836 4, d 4327652 4, d 475996 3, d 5192776 4, d 5625592 4, d 6058408 4,
    d 6491224 4, d 692404 3, d 7356348 4, d 7789164 4, d 9087612 4]
  od := [d 21336 3, d 2667 2, d 33401 3, d 42164 3, d 4826 2, d 60325 3, d 73025 3, d 889 1, d 1143 1, d 1413002 4, d 168275 3, d 219075 3,
    d 27305 2, d 32385 2, d 3556 1, d 4064 1, d 4572 1, d 508 0, d 5588 1, d 6096 1, d 6604 1, d 7112 1, d 762 0, d 8128 1, d 8636 1, d 9144 1,
    d 10668 1]
  t := [d 15748 4, d 19812 4, d 24638 4, d 31242 4, d 35814 4, d 44704 4, d 54102 4, d 65786 4, d 84582 4, d 104648 4, d 124714 4, d 162306 4,
    d 202184 4, d 239776 4, d 263398 4, d 30099 3, d 338582 4, d 376174 4, d 41402 3, d 451612 4, d 489204 4, d 526796 4, d 564388 4, d 60198 3,
    d 639826 4, d 677418 4, d 790194 4]

/-- piping.py:592: schedule "DR11F2619IPS" = (NPSDR11_F2619, SDR11i_F2619IPS, SDR11o_F2619IPS, SDR11t_F2619IPS), from lines 432, 433, 435, 437 -/
def T_DR11F2619IPS : Table where
  nps := [d 5 1, d 75 2, d 1 0, d 125 2, d 15 1, d 2 0, d 25 1, d 3 0, d 4 0, d 5 0, d 6 0, d 8 0, d 10 0, d 12 0, d 14 0, d 16 0, d 18 0, d 20 0,
    d 22 0, d 24 0, d 26 0, d 28 0, d 30 0, d 32 0, d 34 0, d 36 0]
  di := [d 174752 4, d 21844 3, d 27305 3, d 344932 4, d 394716 4, d 493522 4, d 597662 4, d 727456 4, d 935228 4, d 1155954 4, d 1376934 4,
    d 1792478 4, d 2234184 4, d 2649728 4, d 2909316 4, d 332486 3, d 3740912 4, d 4156456 4, d 4572 1, d 4987544 4, d 5403088 4, d 581914 3,
    d 6234684 4, d 6650228 4, d 7065772 4, d 7481316 4]
  od := [d 21336 3, d 2667 2, d 33401 3, d 42164 3, d 4826 2, d 60325 3, d 73025 3, d 889 1, d 1143 1, d 1413002 4, d 168275 3, d 219075 3,
    d 27305 2, d 32385 2, d 3556 1, d 4064 1, d 4572 1, d 508 0, d 5588 1, d 6096 1, d 6604 1, d 7112 1, d 762 0, d 8128 1, d 8636 1, d 9144 1]
  t := [d 19304 4, d 2413 3, d 3048 3, d 38354 4, d 43942 4, d 54864 4, d 66294 4, d 80772 4, d 103886 4, d 128524 4, d 152908 4, d 199136 4,
    d 248158 4, d 294386 4, d 323342 4, d 36957 3, d 415544 4, d 461772 4, d 508 1, d 554228 4, d 600456 4, d 64643 3, d 692658 4, d 738886 4,
    d 785114 4, d 831342 4]

/-- piping.py:593: schedule "DR9F2619IPS" = (NPSDR9_F2619, SDR9i_F2619IPS, SDR9o_F2619IPS, SDR9t_F2619IPS), from lines 424, 425, 427, 429 -/
def T_DR9F2619IPS : Table where
  nps := [d 5 1, d 75 2, d 1 0, d 125 2, d 15 1, d 2 0, d 25 1, d 3 0, d 4 0, d 5 0, d 6 0, d 8 0, d 10 0, d 12 0, d 14 0, d 16 0, d 18 0, d 20 0,
    d 22 0, d 24 0, d 26 0, d 28 0, d 30 0]
  di := [d 166116 4, d 207264 4, d 259842 4, d 328168 4, d 375412 4, d 469138 4, d 568198 4, d 691388 4, d 889 1, d 1099058 4, d 1308862 4,
    d 1704086 4, d 2123948 4, d 2518664 4, d 2765552 4, d 3160776 4, d 3556 1, d 3951224 4, d 4346448 4, d 4741164 4, d 5136388 4, d 5531612 4,
    d 5926836 4]
  od := [d 21336 3, d 2667 2, d 33401 3, d 42164 3, d 4826 2, d 60325 3, d 73025 3, d 889 1, d 1143 1, d 1413002 4, d 168275 3, d 219075 3,
    d 27305 2, d 32385 2, d 3556 1, d 4064 1, d 4572 1, d 508 0, d 5588 1, d 6096 1, d 6604 1, d 7112 1, d 762 0]
  t := [d 23622 4, d 29718 4, d 37084 4, d 46736 4, d 53594 4, d 67056 4, d 81026 4, d 98806 4, d 127 1, d 156972 4, d 186944 4, d 243332 4,
    d 303276 4, d 359918 4, d 395224 4, d 451612 4, d 508 1, d 564388 4, d 620776 4, d 677418 4, d 733806 4, d 790194 4, d 846582 4]

/-- piping.py:594: schedule "DR73F2619IPS" = (NPSDR73_F2619, SDR73i_F2619IPS, SDR73o_F2619IPS, SDR73t_F2619IPS), from lines 416, 417, 419, 421 -/
def T_DR73F2619IPS : Table where
  nps := [d 5 1, d 75 2, d 1 0, d 125 2, d 15 1, d 2 0, d 25 1, d 3 0, d 4 0, d 5 0, d 6 0, d 8 0, d 10 0, d 12 0, d 14 0, d 16 0, d 18 0, d 20 0,
    d 22 0, d 24 0]
  di := [d 15494 3, d 193548 4, d 24257 3, d 306324 4, d 35052 3, d 43815 3, d 530098 4, d 645668 4, d 830072 4, d 1025906 4, d 1221486 4,
    d 1590294 4, d 1982216 4, d 2351024 4, d 2581656 4, d 2950464 4, d 3319272 4, d 368808 3, d 4056888 4, d 4425696 4]
  od := [d 21336 3, d 2667 2, d 33401 3, d 42164 3, d 4826 2, d 60325 3, d 73025 3, d 889 1, d 1143 1, d 1413002 4, d 168275 3, d 219075 3,
    d 27305 2, d 32385 2, d 3556 1, d 4064 1, d 4572 1, d 508 0, d 5588 1, d 6096 1]
  t := [d 2921 3, d 36576 4, d 4572 3, d 57658 4, d 6604 3, d 8255 3, d 100076 4, d 121666 4, d 156464 4, d 193548 4, d 230632 4, d 300228 4,
    d 374142 4, d 443738 4, d 487172 4, d 556768 4, d 626364 4, d 69596 3, d 765556 4, d 835152 4]

/-- piping.py:595: schedule "DR7F2619IPS" = (NPSDR7_F2619, SDR7i_F2619IPS, SDR7o_F2619IPS, SDR7t_F2619IPS), from lines 408, 409, 411, 413 -/
def T_DR7F2619IPS : Table where
  nps := [d 5 1, d 75 2, d 1 0, d 125 2, d 15 1, d 2 0, d 25 1, d 3 0, d 4 0, d 5 0, d 6 0, d 8 0, d 10 0, d 12 0, d 14 0, d 16 0, d 18 0, d 20 0,
    d 22 0, d 24 0]
  di := [d 1524 2, d 1905 2, d 238506 4, d 301244 4, d 344932 4, d 431038 4, d 521462 4, d 635 1, d 816356 4, d 1009142 4, d 1202182 4, d 1564894 4,
    d 1950212 4, d 2313432 4, d 254 0, d 2902712 4, d 3265932 4, d 3628644 4, d 3991356 4, d 4354068 4]
  od := [d 21336 3, d 2667 2, d 33401 3, d 42164 3, d 4826 2, d 60325 3, d 73025 3, d 889 1, d 1143 1, d 1413002 4, d 168275 3, d 219075 3,
    d 27305 2, d 32385 2, d 3556 1, d 4064 1, d 4572 1, d 508 0, d 5588 1, d 6096 1]
  t := [d 3048 3, d 381 2, d 47752 4, d 60198 4, d 68834 4, d 86106 4, d 104394 4, d 127 1, d 163322 4, d 20193 3, d 240284 4, d 312928 4,
    d 390144 4, d 462534 4, d 508 1, d 580644 4, d 653034 4, d 725678 4, d 798322 4, d 870966 4]

/-- piping.py:597: schedule "BS1387LIGHT" = (DN_LIGHT_BS1387, LIGHTi_BS1387, LIGHTo_BS1387, LIGHTt_BS1387), from lines 481, 482, 483, 484 -/
def T_BS1387LIGHT : Table where
  nps := [d 8 0, d 10 0, d 15 0, d 20 0, d 25 0, d 32 0, d 40 0, d 50 0, d 65 0, d 80 0, d 100 0]
  di := [d 10 0, d 135 1, d 174 1, d 223 1, d 286 1, d 373 1, d 426 1, d 544 1, d 696 1, d 823 1, d 1067 1]
  od := [d 136 1, d 171 1, d 214 1, d 269 1, d 338 1, d 425 1, d 484 1, d 602 1, d 76 0, d 887 1, d 1139 1]
  t := [d 18 1, d 18 1, d 2 0, d 23 1, d 26 1, d 26 1, d 29 1, d 29 1, d 32 1, d 32 1, d 36 1]

/-- piping.py:598: schedule "BS1387MEDIUM" = (DN_MEDIUM_BS1387, MEDIUMi_BS1387, MEDIUMo_BS1387, MEDIUMt_BS1387), from lines 487, 488, 489, 490 -/
def T_BS1387MEDIUM : Table where
  nps := [d 8 0, d 10 0, d 15 0, d 20 0, d 25 0, d 32 0, d 40 0, d 50 0, d 65 0, d 80 0, d 100 0, d 125 0, d 150 0]
  di := [d 93 1, d 128 1, d 165 1, d 22 0, d 278 1, d 365 1, d 424 1, d 536 1, d 694 1, d 815 1, d 1059 1, d 1306 1, d 1561 1]
  od := [d 139 1, d 174 1, d 217 1, d 272 1, d 342 1, d 429 1, d 488 1, d 608 1, d 766 1, d 895 1, d 1149 1, d 1406 1, d 1661 1]
  t := [d 23 1, d 23 1, d 26 1, d 26 1, d 32 1, d 32 1, d 32 1, d 36 1, d 36 1, d 4 0, d 45 1, d 5 0, d 5 0]

/-- piping.py:599: schedule "BS1387HEAVY" = (DN_HEAVY_BS1387, HEAVYi_BS1387, HEAVYo_BS1387, HEAVYt_BS1387), from lines 493, 494, 495, 496 -/
def T_BS1387HEAVY : Table where
  nps := [d 8 0, d 10 0, d 15 0, d 20 0, d 25 0, d 32 0, d 40 0, d 50 0, d 65 0, d 80 0, d 100 0, d 125 0, d 150 0]
  di := [d 81 1, d 116 1, d 153 1, d 208 1, d 262 1, d 349 1, d 408 1, d 518 1, d 676 1, d 795 1, d 1041 1, d 1298 1, d 1553 1]
  od := [d 139 1, d 174 1, d 217 1, d 272 1, d 342 1, d 429 1, d 488 1, d 608 1, d 766 1, d 895 1, d 1149 1, d 1406 1, d 1661 1]
  t := [d 29 1, d 29 1, d 32 1, d 32 1, d 4 0, d 4 0, d 4 0, d 45 1, d 45 1, d 5 0, d 54 1, d 54 1, d 54 1]

/-- piping.py:498-600 `schedule_lookup` -/
def schedule_lookup : List (String × Table) := [
  ("40", T_40),
  ("5", T_5),
  ("10", T_10),
  ("20", T_20),
  ("30", T_30),
  ("60", T_60),
  ("80", T_80),
  ("100", T_100),
  ("120", T_120),
  ("140", T_140),
  ("160", T_160),
  ("STD", T_STD),
  ("XS", T_XS),
  ("XXS", T_XXS),
  ("5S", T_5S),
  ("10S", T_10S),
  ("40S", T_40S),
  ("80S", T_80S),
  ("40D1527", T_40D1527),
  ("80D1527", T_80D1527),
  ("ABSD2680", T_ABSD2680),
  ("PVCD2680", T_PVCD2680),
  ("DR25C900", T_DR25C900),
  ("DR18C900", T_DR18C900),
  ("DR14C900", T_DR14C900),
  ("CIDR51C905", T_CIDR51C905),
  ("CIDR41C905", T_CIDR41C905),
  ("CIDR325C905", T_CIDR325C905),
  ("CIDR25C905", T_CIDR25C905),
  ("CIDR21C905", T_CIDR21C905),
  ("CIDR18C905", T_CIDR18C905),
  ("CIDR14C905", T_CIDR14C905),
  ("IPSDR21", T_IPSDR21),
  ("IPSDR26", T_IPSDR26),
  ("IPSDR325", T_IPSDR325),
  ("IPSDR41", T_IPSDR41),
  ("PS115F679", T_PS115F679),
  ("PS75F679", T_PS75F679),
  ("PS46F679", T_PS46F679),
  ("PVCD2665", T_PVCD2665),
  ("40D1785", T_40D1785),
  ("80D1785", T_80D1785),
  ("120D1785", T_120D1785),
  ("DR135D2241", T_DR135D2241),
  ("DR17D2241", T_DR17D2241),
  ("DR21D2241", T_DR21D2241),
  ("DR26D2241", T_DR26D2241),
  ("DR325D2241", T_DR325D2241),
  ("DR41D2241", T_DR41D2241),
  ("DR64D2241", T_DR64D2241),
  ("DR21D2241CTS", T_DR21D2241CTS),
  ("DR17D2241CTS", T_DR17D2241CTS),
  ("DR135D2241CTS", T_DR135D2241CTS),
  ("DR11D2241CTS", T_DR11D2241CTS),
  ("DR21D2241PIP", T_DR21D2241PIP),
  ("DR26D2241PIP", T_DR26D2241PIP),
  ("DR325D2241PIP", T_DR325D2241PIP),
  ("DR35D2241PIP", T_DR35D2241PIP),
  ("DR41D2241PIP", T_DR41D2241PIP),
  ("DR51D2241PIP", T_DR51D2241PIP),
  ("DR81D2241PIP", T_DR81D2241PIP),
  ("S40F441IPS", T_S40F441IPS),
  ("S80F441IPS", T_S80F441IPS),
  ("S40F441SI", T_S40F441SI),
  ("S80F441SI", T_S80F441SI),
  ("DR325F2619SI", T_DR325F2619SI),
  ("DR26F2619SI", T_DR26F2619SI),
  ("DR21F2619SI", T_DR21F2619SI),
  ("DR17F2619SI", T_DR17F2619SI),
  ("DR135F2619SI", T_DR135F2619SI),
  ("DR11F2619SI", T_DR11F2619SI),
  ("DR9F2619SI", T_DR9F2619SI),
  ("DR73F2619SI", T_DR73F2619SI),
  ("DR7F2619SI", T_DR7F2619SI),
  ("DR325F2619IPS", T_DR325F2619IPS),
  ("DR26F2619IPS", T_DR26F2619IPS),
  ("DR21F2619IPS", T_DR21F2619IPS),
  ("DR17F2619IPS", T_DR17F2619IPS),
  ("DR135F2619IPS", T_DR135F2619IPS),
  ("DR11F2619IPS", T_DR11F2619IPS),
  ("DR9F2619IPS", T_DR9F2619IPS),
  ("DR73F2619IPS", T_DR73F2619IPS),
  ("DR7F2619IPS", T_DR7F2619IPS),
  ("BS1387LIGHT", T_BS1387LIGHT),
  ("BS1387MEDIUM", T_BS1387MEDIUM),
  ("BS1387HEAVY", T_BS1387HEAVY)]

/-- piping.py:906: wire schedule "BWG", from lines 892, 893-897, 899-904 -/
def W_BWG : Wire where
  gauges := [d 2 1, d 25 2, d 33 2, d 5 1, d 0 0, d 1 0, d 2 0, d 3 0, d 4 0, d 5 0, d 6 0, d 7 0, d 8 0, d 9 0, d 10 0, d 11 0, d 12 0, d 13 0,
    d 14 0, d 15 0, d 16 0, d 17 0, d 18 0, d 19 0, d 20 0, d 21 0, d 22 0, d 23 0, d 24 0, d 25 0, d 26 0, d 27 0, d 28 0, d 29 0, d 30 0, d 31 0,
    d 32 0, d 33 0, d 34 0, d 35 0, d 36 0]
  inch := [d 5 1, d 454 3, d 425 3, d 38 2, d 34 2, d 3 1, d 284 3, d 259 3, d 238 3, d 22 2, d 203 3, d 18 2, d 165 3, d 148 3, d 134 3, d 12 2,
    d 109 3, d 95 3, d 83 3, d 72 3, d 65 3, d 58 3, d 49 3, d 42 3, d 35 3, d 32 3, d 28 3, d 25 3, d 22 3, d 2 2, d 18 3, d 16 3, d 14 3, d 13 3,
    d 12 3, d 1 2, d 9 3, d 8 3, d 7 3, d 5 3, d 4 3]
  si := [d 127 4, d 11532 6, d 10795 6, d 9652 6, d 8636 6, d 762 5, d 7214 6, d 6579 6, d 6045 6, d 5588 6, d 5156 6, d 4572 6, d 4191 6, d 3759 6,
    d 3404 6, d 3048 6, d 2769 6, d 2413 6, d 2108 6, d 1829 6, d 1651 6, d 1473 6, d 1245 6, d 1067 6, d 889 6, d 813 6, d 711 6, d 635 6, d 559 6,
    d 508 6, d 457 6, d 406 6, d 356 6, d 33 5, d 305 6, d 254 6, d 229 6, d 203 6, d 178 6, d 127 6, d 102 6]

/-- piping.py:907: wire schedule "AWG", from lines 869, 870-877, 879-889 -/
def W_AWG : Wire where
  gauges := [d 167 3, d 2 1, d 25 2, d 33 2, d 5 1, d 0 0, d 1 0, d 2 0, d 3 0, d 4 0, d 5 0, d 6 0, d 7 0, d 8 0, d 9 0, d 10 0, d 11 0, d 12 0,
    d 13 0, d 14 0, d 15 0, d 16 0, d 17 0, d 18 0, d 19 0, d 20 0, d 21 0, d 22 0, d 23 0, d 24 0, d 25 0, d 26 0, d 27 0, d 28 0, d 29 0, d 30 0,
    d 31 0, d 32 0, d 33 0, d 34 0, d 35 0, d 36 0, d 37 0, d 38 0, d 39 0, d 40 0, d 41 0, d 42 0, d 43 0, d 44 0, d 45 0, d 46 0, d 47 0, d 48 0,
    d 49 0, d 50 0]
  inch := [d 58 2, d 5165 4, d 46 2, d 4096 4, d 3648 4, d 3249 4, d 2893 4, d 2576 4, d 2294 4, d 2043 4, d 1819 4, d 162 3, d 1443 4, d 1285 4,
    d 1144 4, d 1019 4, d 907 4, d 808 4, d 72 3, d 641 4, d 571 4, d 508 4, d 453 4, d 403 4, d 359 4, d 32 3, d 285 4, d 253 4, d 226 4, d 201 4,
    d 179 4, d 159 4, d 142 4, d 126 4, d 113 4, d 1 2, d 893 5, d 795 5, d 708 5, d 63 4, d 561 5, d 5 3, d 445 5, d 396 5, d 353 5, d 314 5,
    d 28 4, d 249 5, d 222 5, d 198 5, d 176 5, d 157 5, d 14 4, d 124 5, d 111 5, d 99 5]
  si := [d 14732 6, d 131191 7, d 11684 6, d 1040384 8, d 926592 8, d 825246 8, d 734822 8, d 654304 8, d 582676 8, d 518922 8, d 462026 8,
    d 41148 7, d 366522 8, d 32639 7, d 290576 8, d 258826 8, d 230378 8, d 205232 8, d 18288 7, d 162814 8, d 145034 8, d 129032 8, d 115062 8,
    d 102362 8, d 91186 8, d 8128 7, d 7239 7, d 64262 8, d 57404 8, d 51054 8, d 45466 8, d 40386 8, d 36068 8, d 32004 8, d 28702 8, d 254 6,
    d 226822 9, d 20193 8, d 179832 9, d 16002 8, d 142494 9, d 127 6, d 11303 8, d 100584 9, d 89662 9, d 79756 9, d 7112 8, d 63246 9, d 56388 9,
    d 50292 9, d 44704 9, d 39878 9, d 3556 8, d 31496 9, d 28194 9, d 25146 9]

/-- piping.py:908: wire schedule "SWG", from lines 848, 849-855, 857-866 -/
def W_SWG : Wire where
  gauges := [d 143 3, d 167 3, d 2 1, d 25 2, d 33 2, d 5 1, d 0 0, d 1 0, d 2 0, d 3 0, d 4 0, d 5 0, d 6 0, d 7 0, d 8 0, d 9 0, d 10 0, d 11 0,
    d 12 0, d 13 0, d 14 0, d 15 0, d 16 0, d 17 0, d 18 0, d 19 0, d 20 0, d 21 0, d 22 0, d 23 0, d 24 0, d 25 0, d 26 0, d 27 0, d 28 0, d 29 0,
    d 30 0, d 31 0, d 32 0, d 33 0, d 34 0, d 35 0, d 36 0, d 37 0, d 38 0, d 39 0, d 40 0, d 41 0, d 42 0, d 43 0, d 44 0, d 45 0, d 46 0, d 47 0,
    d 48 0, d 49 0, d 50 0]
  inch := [d 49 2, d 4615 4, d 4305 4, d 3938 4, d 3625 4, d 331 3, d 3065 4, d 283 3, d 2625 4, d 2437 4, d 2253 4, d 207 3, d 192 3, d 177 3,
    d 162 3, d 1483 4, d 135 3, d 1205 4, d 1055 4, d 915 4, d 8 2, d 72 3, d 625 4, d 54 3, d 475 4, d 41 3, d 348 4, d 318 4, d 286 4, d 258 4,
    d 23 3, d 204 4, d 181 4, d 173 4, d 162 4, d 15 3, d 14 3, d 132 4, d 128 4, d 118 4, d 104 4, d 95 4, d 9 3, d 85 4, d 8 3, d 75 4, d 7 3,
    d 66 4, d 62 4, d 6 3, d 58 4, d 55 4, d 52 4, d 5 3, d 48 4, d 46 4, d 44 4]
  si := [d 12446 6, d 117221 7, d 109347 7, d 1000252 8, d 92075 7, d 84074 7, d 77851 7, d 71882 7, d 66675 7, d 618998 8, d 572262 8, d 52578 7,
    d 48768 7, d 44958 7, d 41148 7, d 376682 8, d 3429 6, d 30607 7, d 26797 7, d 23241 7, d 2032 6, d 18288 7, d 15875 7, d 13716 7, d 12065 7,
    d 10414 7, d 88392 8, d 80772 8, d 72644 8, d 65532 8, d 5842 7, d 51816 8, d 45974 8, d 43942 8, d 41148 8, d 381 6, d 3556 7, d 33528 8,
    d 32512 8, d 29972 8, d 26416 8, d 2413 7, d 2286 7, d 2159 7, d 2032 7, d 1905 7, d 1778 7, d 16764 8, d 15748 8, d 1524 7, d 14732 8, d 1397 7,
    d 13208 8, d 127 6, d 12192 8, d 11684 8, d 11176 8]

/-- piping.py:909: wire schedule "MWG", from lines 810-816, 829-834, 836-844 -/
def W_MWG : Wire where
  gauges := [d 45 0, d 44 0, d 43 0, d 42 0, d 41 0, d 40 0, d 39 0, d 38 0, d 37 0, d 36 0, d 35 0, d 34 0, d 33 0, d 32 0, d 31 0, d 30 0, d 29 0,
    d 28 0, d 27 0, d 26 0, d 25 0, d 24 0, d 23 0, d 22 0, d 21 0, d 20 0, d 19 0, d 18 0, d 17 0, d 16 0, d 15 0, d 14 0, d 13 0, d 12 0, d 11 0,
    d 10 0, d 9 0, d 8 0, d 7 0, d 6 0, d 5 0, d 4 0, d 3 0, d 2 0, d 1 0, d 0 0, d 5 1, d 33 2, d 25 2, d 2 1, d 167 3]
  inch := [d 18 2, d 17 2, d 162 3, d 154 3, d 146 3, d 138 3, d 13 2, d 124 3, d 118 3, d 112 3, d 106 3, d 1 1, d 95 3, d 9 2, d 85 3, d 8 2,
    d 75 3, d 71 3, d 67 3, d 63 3, d 59 3, d 55 3, d 51 3, d 49 3, d 47 3, d 45 3, d 43 3, d 41 3, d 39 3, d 37 3, d 35 3, d 33 3, d 31 3, d 29 3,
    d 26 3, d 24 3, d 22 3, d 2 2, d 18 3, d 16 3, d 14 3, d 13 3, d 12 3, d 11 3, d 1 2, d 9 3, d 8 3, d 7 3, d 6 3, d 5 3, d 4 3]
  si := [d 4572 6, d 4318 6, d 41148 7, d 39116 7, d 37084 7, d 35052 7, d 3302 6, d 31496 7, d 29972 7, d 28448 7, d 26924 7, d 254 5, d 2413 6,
    d 2286 6, d 2159 6, d 2032 6, d 1905 6, d 18034 7, d 17018 7, d 16002 7, d 14986 7, d 1397 6, d 12954 7, d 12446 7, d 11938 7, d 1143 6,
    d 10922 7, d 10414 7, d 9906 7, d 9398 7, d 889 6, d 8382 7, d 7874 7, d 7366 7, d 6604 7, d 6096 7, d 5588 7, d 508 6, d 4572 7, d 4064 7,
    d 3556 7, d 3302 7, d 3048 7, d 2794 7, d 254 6, d 2286 7, d 2032 7, d 1778 7, d 1524 7, d 127 6, d 1016 7]

/-- piping.py:910: wire schedule "BSWG", from lines 789, 790-795, 797-806 -/
def W_BSWG : Wire where
  gauges := [d 143 3, d 167 3, d 2 1, d 25 2, d 33 2, d 5 1, d 0 0, d 1 0, d 2 0, d 3 0, d 4 0, d 5 0, d 6 0, d 7 0, d 8 0, d 9 0, d 10 0, d 11 0,
    d 12 0, d 13 0, d 14 0, d 15 0, d 16 0, d 17 0, d 18 0, d 19 0, d 20 0, d 21 0, d 22 0, d 23 0, d 24 0, d 25 0, d 26 0, d 27 0, d 28 0, d 29 0,
    d 30 0, d 31 0, d 32 0, d 33 0, d 34 0, d 35 0, d 36 0, d 37 0, d 38 0, d 39 0, d 40 0, d 41 0, d 42 0, d 43 0, d 44 0, d 45 0, d 46 0, d 47 0,
    d 48 0, d 49 0, d 50 0]
  inch := [d 5 1, d 464 3, d 432 3, d 4 1, d 372 3, d 348 3, d 324 3, d 3 1, d 276 3, d 252 3, d 232 3, d 212 3, d 192 3, d 176 3, d 16 2, d 144 3,
    d 128 3, d 116 3, d 104 3, d 92 3, d 8 2, d 72 3, d 64 3, d 56 3, d 48 3, d 4 2, d 36 3, d 32 3, d 28 3, d 24 3, d 22 3, d 2 2, d 18 3, d 164 4,
    d 149 4, d 136 4, d 124 4, d 116 4, d 108 4, d 1 2, d 92 4, d 84 4, d 76 4, d 68 4, d 6 3, d 52 4, d 48 4, d 44 4, d 4 3, d 36 4, d 32 4, d 28 4,
    d 24 4, d 2 3, d 16 4, d 12 4, d 1 3]
  si := [d 127 4, d 117856 7, d 109728 7, d 1016 5, d 94488 7, d 88392 7, d 82296 7, d 762 5, d 70104 7, d 64008 7, d 58928 7, d 53848 7, d 48768 7,
    d 44704 7, d 4064 6, d 36576 7, d 32512 7, d 29464 7, d 26416 7, d 23368 7, d 2032 6, d 18288 7, d 16256 7, d 14224 7, d 12192 7, d 1016 6,
    d 9144 7, d 8128 7, d 7112 7, d 6096 7, d 5588 7, d 508 6, d 4572 7, d 41656 8, d 37846 8, d 34544 8, d 31496 8, d 29464 8, d 27432 8, d 254 6,
    d 23368 8, d 21336 8, d 19304 8, d 17272 8, d 1524 7, d 13208 8, d 12192 8, d 11176 8, d 1016 7, d 9144 8, d 8128 8, d 7112 8, d 6096 8, d 508 7,
    d 4064 8, d 3048 8, d 254 7]

/-- piping.py:911: wire schedule "SSWG", from lines 761, 762-770, 772-785 -/
def W_SSWG : Wire where
  gauges := [d 1 0, d 2 0, d 3 0, d 4 0, d 5 0, d 6 0, d 7 0, d 8 0, d 9 0, d 10 0, d 11 0, d 12 0, d 13 0, d 14 0, d 15 0, d 16 0, d 17 0, d 18 0,
    d 19 0, d 20 0, d 21 0, d 22 0, d 23 0, d 24 0, d 25 0, d 26 0, d 27 0, d 28 0, d 29 0, d 30 0, d 31 0, d 32 0, d 33 0, d 34 0, d 35 0, d 36 0,
    d 37 0, d 38 0, d 39 0, d 40 0, d 41 0, d 42 0, d 43 0, d 44 0, d 45 0, d 46 0, d 47 0, d 48 0, d 49 0, d 50 0, d 51 0, d 52 0, d 53 0, d 54 0,
    d 55 0, d 56 0, d 57 0, d 58 0, d 59 0, d 60 0, d 61 0, d 62 0, d 63 0, d 64 0, d 65 0, d 66 0, d 67 0, d 68 0, d 69 0, d 70 0, d 71 0, d 72 0,
    d 73 0, d 74 0, d 75 0, d 76 0, d 77 0, d 78 0, d 79 0, d 80 0]
  inch := [d 227 3, d 219 3, d 212 3, d 207 3, d 204 3, d 201 3, d 199 3, d 197 3, d 194 3, d 191 3, d 188 3, d 185 3, d 182 3, d 18 2, d 178 3,
    d 175 3, d 172 3, d 168 3, d 164 3, d 161 3, d 157 3, d 155 3, d 153 3, d 151 3, d 148 3, d 146 3, d 143 3, d 139 3, d 134 3, d 127 3, d 12 2,
    d 115 3, d 112 3, d 11 2, d 108 3, d 106 3, d 103 3, d 101 3, d 99 3, d 97 3, d 95 3, d 92 3, d 88 3, d 85 3, d 81 3, d 79 3, d 77 3, d 75 3,
    d 72 3, d 69 3, d 66 3, d 63 3, d 58 3, d 55 3, d 5 2, d 45 3, d 42 3, d 41 3, d 4 2, d 39 3, d 38 3, d 37 3, d 36 3, d 35 3, d 33 3, d 32 3,
    d 31 3, d 3 2, d 29 3, d 27 3, d 26 3, d 24 3, d 23 3, d 22 3, d 2 2, d 18 3, d 16 3, d 15 3, d 14 3, d 13 3]
  si := [d 57658 7, d 55626 7, d 53848 7, d 52578 7, d 51816 7, d 51054 7, d 50546 7, d 50038 7, d 49276 7, d 48514 7, d 47752 7, d 4699 6,
    d 46228 7, d 4572 6, d 45212 7, d 4445 6, d 43688 7, d 42672 7, d 41656 7, d 40894 7, d 39878 7, d 3937 6, d 38862 7, d 38354 7, d 37592 7,
    d 37084 7, d 36322 7, d 35306 7, d 34036 7, d 32258 7, d 3048 6, d 2921 6, d 28448 7, d 2794 6, d 27432 7, d 26924 7, d 26162 7, d 25654 7,
    d 25146 7, d 24638 7, d 2413 6, d 23368 7, d 22352 7, d 2159 6, d 20574 7, d 20066 7, d 19558 7, d 1905 6, d 18288 7, d 17526 7, d 16764 7,
    d 16002 7, d 14732 7, d 1397 6, d 127 5, d 1143 6, d 10668 7, d 10414 7, d 1016 6, d 9906 7, d 9652 7, d 9398 7, d 9144 7, d 889 6, d 8382 7,
    d 8128 7, d 7874 7, d 762 6, d 7366 7, d 6858 7, d 6604 7, d 6096 7, d 5842 7, d 5588 7, d 508 6, d 4572 7, d 4064 7, d 381 6, d 3556 7,
    d 3302 7]

/-- piping.py:906-911 `wire_schedules` -/
def wire_schedules : List (String × Wire) := [("BWG", W_BWG), ("AWG", W_AWG), ("SWG", W_SWG), ("MWG", W_MWG), ("BSWG", W_BSWG), ("SSWG", W_SSWG)]

end Verif.Piping

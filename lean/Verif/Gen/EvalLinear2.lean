import Verif.Model.EvalLinear

/-!
# The body of `eval_linear`, part 2

Generated by tools/gen_eval_linear.py from _mooreriderlean2012.py:1829-3314.  Do not edit.
-/

namespace BP.EL

open E

/-- _mooreriderlean2012.py:1829-1947 -/
def part12 : List (ℕ × E) := [
(1252, qt 2 ⊛ rf ⊛ z 23 ⊛ z 83 ⊛ z 1207 ⊝ z 5 ⊛ z 250 ⊝ z 6 ⊛ z 9 ⊛ z 254 ⊝ qt 2 ⊛ rf ⊛ z 6 ⊛ z 83
    ⊛ z 1212),
(1253, z 4 ⊛ z 5 ⊛ z 9 ⊛ z 254 ⊹ qt 2 ⊛ rf ⊛ z 27 ⊛ z 83 ⊛ z 1207 ⊹ qt 2 ⊛ rf ⊛ z 31 ⊛ z 83 ⊛ z
    1212 ⊝ z 4 ⊛ z 6 ⊛ z 250),
(1254, z 470 ⊛ z 1250 ⊹ z 476 ⊛ z 1253),
(1255, z 5 ⊛ z 262 ⊹ z 6 ⊛ z 10 ⊛ z 259 ⊹ z 23 ⊛ (z 1203 ⊹ z 1208) ⊹ z 6 ⊛ (z 1216 ⊝ z 1217) ⊝ z 6
    ⊛ z 9 ⊛ z 257 ⊝ z 25 ⊛ (z 1211 ⊹ z 1215)),
(1256, z 2 ⊛ z 5 ⊹ z 1 ⊛ z 4 ⊛ z 6),
(1257, z 1 ⊛ z 4 ⊛ z 5 ⊝ z 2 ⊛ z 6),
(1258, z 5 ⊛ z 125 ⊹ z 6 ⊛ z 1256 ⊹ z 6 ⊛ z 10 ⊛ z 239 ⊹ z 9 ⊛ z 23 ⊛ z 1257 ⊹ z 10 ⊛ z 25 ⊛ z
    1257 ⊝ z 6 ⊛ z 9 ⊛ z 234),
(1259, z 2 ⊛ z 1255 ⊝ z 228 ⊛ z 1258),
(1260, z 4 ⊛ z 6 ⊛ z 125 ⊹ z 9 ⊛ z 27 ⊛ z 1257 ⊹ z 4 ⊛ z 5 ⊛ z 9 ⊛ z 234 ⊝ z 31 ⊛ z 1256 ⊝ z 10 ⊛
    z 29 ⊛ z 1257 ⊝ z 4 ⊛ z 5 ⊛ z 10 ⊛ z 239),
(1261, z 469 ⊛ z 1250 ⊹ z 476 ⊛ z 1260),
(1262, z 515 ⊛ z 1251 ⊹ z 2 ⊛ z 499 ⊛ z 1252 ⊝ z 496 ⊛ z 1259 ⊝ z 513 ⊛ z 1254 ⊝ z 517 ⊛ z 1261 ⊝
    z 228 ⊛ z 502 ⊛ z 1252),
(1263, z 3 ⊛ z 5 ⊛ z 31 ⊹ z 3 ⊛ z 6 ⊛ z 41 ⊝ z 4 ⊛ z 5 ⊛ z 32 ⊝ z 4 ⊛ z 6 ⊛ z 42),
(1264, z 3 ⊛ z 6 ⊛ z 27 ⊹ z 4 ⊛ z 6 ⊛ z 28 ⊹ z 3 ⊛ z 5 ⊛ z 9 ⊛ z 31 ⊝ z 4 ⊛ z 5 ⊛ z 9 ⊛ z 32),
(1265, neg d1 ⊛ z 1263 ⊝ d3 ⊛ z 1264),
(1266, z 39 ⊛ z 1264 ⊹ qt 2 ⊛ rf ⊛ z 77 ⊛ z 1212),
(1267, d1 ⊛ z 5 ⊛ (pow (z 3) 2 ⊹ pow (z 4) 2)),
(1268, d2 ⊛ z 1264 ⊹ z 10 ⊛ z 1267),
(1269, z 40 ⊛ z 1264 ⊹ qt 2 ⊛ rf ⊛ z 77 ⊛ z 1207),
(1270, z 5 ⊛ (z 3 ⊛ z 9 ⊛ z 29 ⊹ z 3 ⊛ z 10 ⊛ z 27 ⊹ z 4 ⊛ z 9 ⊛ z 30 ⊝ z 4 ⊛ z 10 ⊛ z 66)),
(1271, z 4 ⊛ z 6 ⊛ z 69 ⊹ z 3 ⊛ z 5 ⊛ z 10 ⊛ z 31 ⊝ z 3 ⊛ z 6 ⊛ z 29 ⊝ z 4 ⊛ z 5 ⊛ z 10 ⊛ z 32),
(1272, d3 ⊛ z 1270 ⊝ d2 ⊛ z 1271),
(1273, z 11 ⊛ z 1270 ⊹ z 12 ⊛ z 1271),
(1274, z 11 ⊛ z 1271 ⊝ z 12 ⊛ z 1270),
(1275, z 11 ⊛ z 39 ⊛ z 1273 ⊹ qt 2 ⊛ rf ⊛ z 11 ⊛ z 97 ⊛ z 1212 ⊝ z 11 ⊛ z 40 ⊛ z 1274 ⊝ z 12 ⊛ z
    39 ⊛ z 1274 ⊝ z 12 ⊛ z 40 ⊛ z 1273 ⊝ qt 2 ⊛ rf ⊛ z 11 ⊛ z 92 ⊛ z 1207 ⊝ qt 2 ⊛ rf ⊛ z 12 ⊛ z
    92 ⊛ z 1212 ⊝ qt 2 ⊛ rf ⊛ z 12 ⊛ z 97 ⊛ z 1207),
(1276, z 1272 ⊹ z 1275 ⊹ z 9 ⊛ z 1267),
(1277, z 5 ⊛ z 263 ⊹ z 6 ⊛ z 10 ⊛ z 261 ⊹ z 23 ⊛ (z 1268 ⊹ z 1269) ⊹ z 6 ⊛ (z 1265 ⊝ z 1266) ⊝ z
    25 ⊛ z 1276 ⊝ z 6 ⊛ z 9 ⊛ z 256),
(1278, z 3 ⊛ (z 5 ⊛ z 7 ⊝ z 6 ⊛ z 8)),
(1279, z 3 ⊛ (z 5 ⊛ z 8 ⊹ z 6 ⊛ z 7)),
(1280, rr ⊛ (z 54 ⊛ z 64 ⊹ z 61 ⊛ z 220 ⊝ z 43 ⊛ z 54 ⊛ z 1278 ⊝ z 43 ⊛ z 55 ⊛ z 1279)),
(1281, z 458 ⊛ z 1252 ⊹ z 3 ⊛ z 463 ⊛ z 1280),
(1282, z 457 ⊛ z 1255 ⊹ z 458 ⊛ z 1258 ⊹ z 3 ⊛ z 462 ⊛ z 1280),
(1283, z 498 ⊛ z 1251 ⊹ z 501 ⊛ z 1261 ⊹ z 502 ⊛ z 1281 ⊹ z 457 ⊛ z 499 ⊛ z 1252 ⊝ z 495 ⊛ z 1254
    ⊝ z 496 ⊛ z 1282),
(1284, d1 ⊛ z 4 ⊛ z 5 ⊹ z 3 ⊛ z 5 ⊛ z 1234 ⊹ z 4 ⊛ z 6 ⊛ z 448 ⊹ z 3 ⊛ z 5 ⊛ z 9 ⊛ z 453 ⊹ z 4 ⊛ z
    5 ⊛ z 9 ⊛ z 449 ⊹ z 1229 ⊛ (z 3 ⊛ z 24 ⊝ z 4 ⊛ z 10) ⊹ qt 2 ⊛ rf ⊛ z 1212 ⊛ (z 3 ⊛ z 10 ⊹ z 4
    ⊛ z 24) ⊝ z 3 ⊛ z 6 ⊛ z 455 ⊝ z 3 ⊛ z 5 ⊛ z 10 ⊛ z 451 ⊝ qt 2 ⊛ rf ⊛ z 4 ⊛ z 5 ⊛ z 1207 ⊝ z
    1249 ⊛ (z 3 ⊛ z 26 ⊹ z 4 ⊛ z 9)),
(1285, z 5 ⊛ (z 6 ⊝ z 3 ⊛ z 42 ⊝ z 4 ⊛ z 41)),
(1286, z 4 ⊛ z 5 ⊛ z 27 ⊹ z 3 ⊛ z 5 ⊛ z 9 ⊛ z 42 ⊹ z 4 ⊛ z 5 ⊛ z 9 ⊛ z 41 ⊝ z 6 ⊛ z 23 ⊝ z 3 ⊛ z 5
    ⊛ z 28 ⊝ z 5 ⊛ z 6 ⊛ z 9),
(1287, n 2 ⊛ d1 ⊛ z 1285 ⊝ d3 ⊛ z 1286),
(1288, z 39 ⊛ z 1286 ⊹ qt 2 ⊛ rf ⊛ z 76 ⊛ z 1212),
(1289, z 40 ⊛ z 1286 ⊹ qt 2 ⊛ rf ⊛ z 76 ⊛ z 1207),
(1290, z 5 ⊛ z 9 ⊛ z 25 ⊹ z 3 ⊛ z 6 ⊛ z 9 ⊛ z 30 ⊝ z 6 ⊛ z 10 ⊛ z 24 ⊝ z 3 ⊛ z 5 ⊛ z 10 ⊛ z 68 ⊝ z
    4 ⊛ z 5 ⊛ z 10 ⊛ z 67 ⊝ z 4 ⊛ z 6 ⊛ z 9 ⊛ z 29),
(1291, z 5 ⊛ z 26 ⊹ z 5 ⊛ z 6 ⊛ z 10 ⊝ z 3 ⊛ z 6 ⊛ z 72 ⊝ z 4 ⊛ z 6 ⊛ z 71 ⊝ z 3 ⊛ z 6 ⊛ z 10 ⊛ z
    32 ⊝ z 4 ⊛ z 6 ⊛ z 10 ⊛ z 31),
(1292, d3 ⊛ z 1290 ⊝ d2 ⊛ z 1291),
(1293, z 11 ⊛ z 1290 ⊹ z 12 ⊛ z 1291),
(1294, z 11 ⊛ z 1291 ⊝ z 12 ⊛ z 1290),
(1295, z 11 ⊛ z 39 ⊛ z 1293 ⊹ qt 2 ⊛ rf ⊛ z 11 ⊛ z 95 ⊛ z 1212 ⊝ z 11 ⊛ z 40 ⊛ z 1294 ⊝ z 12 ⊛ z
    39 ⊛ z 1294 ⊝ z 12 ⊛ z 40 ⊛ z 1293 ⊝ qt 2 ⊛ rf ⊛ z 11 ⊛ z 91 ⊛ z 1207 ⊝ qt 2 ⊛ rf ⊛ z 12 ⊛ z
    91 ⊛ z 1212 ⊝ qt 2 ⊛ rf ⊛ z 12 ⊛ z 95 ⊛ z 1207),
(1296, z 5 ⊛ z 264 ⊹ z 6 ⊛ z 10 ⊛ z 260 ⊹ z 6 ⊛ (z 1287 ⊝ z 1288) ⊹ z 23 ⊛ (z 1289 ⊹ d2 ⊛ z 1286)
    ⊝ z 6 ⊛ z 9 ⊛ z 255 ⊝ z 25 ⊛ (z 1292 ⊹ z 1295)),
(1297, z 4 ⊛ z 6 ⊛ z 264 ⊹ z 4 ⊛ z 5 ⊛ z 9 ⊛ z 255 ⊹ z 29 ⊛ (z 1292 ⊹ z 1295) ⊹ z 27 ⊛ (z 1289 ⊹
    d2 ⊛ z 1286) ⊝ z 4 ⊛ z 5 ⊛ z 10 ⊛ z 260 ⊝ z 31 ⊛ (z 1287 ⊝ z 1288)),
(1298, z 464 ⊛ z 1253 ⊹ z 470 ⊛ z 1296 ⊝ z 463 ⊛ z 1297 ⊝ z 471 ⊛ z 1252),
(1299, z 462 ⊛ z 1253 ⊹ z 470 ⊛ z 1258 ⊝ z 463 ⊛ z 1260 ⊝ z 469 ⊛ z 1252),
(1300, rr ⊛ (z 54 ⊛ z 65 ⊝ z 62 ⊛ z 220)),
(1301, z 3 ⊛ z 225 ⊛ z 1280 ⊝ n 2 ⊛ rr ⊛ z 458 ⊛ z 1285 ⊝ z 3 ⊛ z 228 ⊛ z 1300),
(1302, z 466 ⊛ z 1253 ⊹ z 470 ⊛ z 1255 ⊝ z 463 ⊛ z 1218 ⊝ z 473 ⊛ z 1252),
(1303, n 2 ⊛ rr ⊛ z 457 ⊛ z 1285 ⊝ z 2 ⊛ z 3 ⊛ z 1300),
(1304, z 484 ⊛ z 1301 ⊹ z 487 ⊛ z 1298 ⊹ z 492 ⊛ z 1299 ⊝ z 480 ⊛ z 1303 ⊝ z 490 ⊛ z 1302 ⊝ z 2 ⊛
    z 3 ⊛ z 481 ⊛ z 1280),
(1305, z 29 ⊛ z 1276 ⊹ z 4 ⊛ z 6 ⊛ z 263 ⊹ z 4 ⊛ z 5 ⊛ z 9 ⊛ z 256 ⊹ z 27 ⊛ (z 1268 ⊹ z 1269) ⊝ z
    4 ⊛ z 5 ⊛ z 10 ⊛ z 261 ⊝ z 31 ⊛ (z 1265 ⊝ z 1266)),
(1306, z 463 ⊛ z 1250 ⊹ z 476 ⊛ z 1252),
(1307, z 1 ⊛ z 5 ⊝ z 2 ⊛ z 4 ⊛ z 6),
(1308, neg (z 1) ⊛ z 6 ⊝ z 2 ⊛ z 4 ⊛ z 5),
(1309, z 5 ⊛ z 122 ⊹ z 6 ⊛ z 1307 ⊹ z 6 ⊛ z 10 ⊛ z 238 ⊹ z 9 ⊛ z 23 ⊛ z 1308 ⊹ z 10 ⊛ z 25 ⊛ z
    1308 ⊝ z 6 ⊛ z 9 ⊛ z 233),
(1310, z 4 ⊛ z 6 ⊛ z 122 ⊹ z 9 ⊛ z 27 ⊛ z 1308 ⊹ z 4 ⊛ z 5 ⊛ z 9 ⊛ z 233 ⊝ z 31 ⊛ z 1307 ⊝ z 10 ⊛
    z 29 ⊛ z 1308 ⊝ z 4 ⊛ z 5 ⊛ z 10 ⊛ z 238),
(1311, z 461 ⊛ z 1253 ⊹ z 470 ⊛ z 1309 ⊝ z 463 ⊛ z 1310 ⊝ z 468 ⊛ z 1252),
(1312, z 1250 ⊛ (z 482 ⊛ z 484 ⊝ z 478 ⊛ z 480 ⊝ z 487 ⊛ z 489) ⊝ z 476 ⊛ (z 478 ⊛ z 1302 ⊹ z 487
    ⊛ z 1311 ⊹ z 1 ⊛ z 3 ⊛ z 484 ⊛ z 1280 ⊝ z 482 ⊛ z 1299 ⊝ z 2 ⊛ z 3 ⊛ z 489 ⊛ z 1280)),
(1313, (z 1312 ⊛ (z 460 ⊛ z 519 ⊹ z 465 ⊛ z 487 ⊛ z 496 ⊝ z 224 ⊛ z 504 ⊝ z 475 ⊛ z 533 ⊝ z 472 ⊛
    z 487 ⊛ z 528) ⊹ z 494 ⊛ (z 224 ⊛ z 1283 ⊹ z 475 ⊛ z 1304 ⊹ z 533 ⊛ z 1284 ⊹ rr ⊛ z 504 ⊛ z
    1263 ⊹ z 472 ⊛ z 487 ⊛ z 1306 ⊹ z 487 ⊛ z 528 ⊛ z 1305 ⊹ z 2 ⊛ z 3 ⊛ z 465 ⊛ z 496 ⊛ z 1280 ⊝
    z 460 ⊛ z 1262 ⊝ z 3 ⊛ z 519 ⊛ z 1200 ⊝ z 465 ⊛ z 487 ⊛ z 1254 ⊝ z 487 ⊛ z 496 ⊛ z 1277 ⊝ z 2
    ⊛ z 3 ⊛ z 472 ⊛ z 528 ⊛ z 1280)) ⊘ pow (z 494) 2),
(1314, z 227 ⊛ (z 494 ⊛ z 1283 ⊝ z 504 ⊛ z 1312) ⊘ pow (z 494) 2),
(1315, z 5 ⊛ z 9 ⊛ z 1244 ⊹ z 6 ⊛ z 10 ⊛ z 454 ⊹ z 3 ⊛ z 5 ⊛ z 10 ⊛ z 449 ⊹ z 1229 ⊛ (z 3 ⊛ z 9 ⊝
    z 4 ⊛ z 6 ⊛ z 10) ⊹ qt 2 ⊛ rf ⊛ z 1212 ⊛ (z 4 ⊛ z 9 ⊹ z 3 ⊛ z 6 ⊛ z 10) ⊝ z 5 ⊛ z 10 ⊛ z 1239
    ⊝ z 6 ⊛ z 9 ⊛ z 452 ⊝ z 4 ⊛ z 5 ⊛ z 9 ⊛ z 451 ⊝ z 4 ⊛ z 5 ⊛ z 10 ⊛ z 453 ⊝ z 1249 ⊛ (z 3 ⊛ z
    10 ⊹ z 4 ⊛ z 6 ⊛ z 9)),
(1316, z 10 ⊛ (z 3 ⊛ z 5 ⊛ z 30 ⊝ z 6 ⊛ z 25 ⊝ z 4 ⊛ z 5 ⊛ z 29)),
(1317, z 4 ⊛ z 6 ⊛ z 70 ⊹ z 9 ⊛ pow (z 6) 2 ⊹ z 3 ⊛ z 5 ⊛ z 9 ⊛ z 32 ⊹ z 4 ⊛ z 5 ⊛ z 9 ⊛ z 31 ⊝ z
    5 ⊛ z 23 ⊝ z 3 ⊛ z 6 ⊛ z 66),
(1318, n 2 ⊛ d3 ⊛ z 1316 ⊝ d2 ⊛ z 1317),
(1319, z 12 ⊛ z 1317 ⊹ n 2 ⊛ z 11 ⊛ z 1316),
(1320, z 11 ⊛ z 1317 ⊝ n 2 ⊛ z 12 ⊛ z 1316),
(1321, z 11 ⊛ z 39 ⊛ z 1319 ⊹ qt 2 ⊛ rf ⊛ z 11 ⊛ z 96 ⊛ z 1212 ⊝ z 11 ⊛ z 40 ⊛ z 1320 ⊝ z 12 ⊛ z
    39 ⊛ z 1320 ⊝ z 12 ⊛ z 40 ⊛ z 1319 ⊝ qt 2 ⊛ rf ⊛ z 11 ⊛ z 93 ⊛ z 1207 ⊝ qt 2 ⊛ rf ⊛ z 12 ⊛ z
    93 ⊛ z 1212 ⊝ qt 2 ⊛ rf ⊛ z 12 ⊛ z 96 ⊛ z 1207),
(1322, z 25 ⊛ (z 1318 ⊹ z 1321) ⊝ z 6 ⊛ z 10 ⊛ z 258),
(1323, z 29 ⊛ (z 1318 ⊹ z 1321) ⊝ z 4 ⊛ z 5 ⊛ z 10 ⊛ z 258),
(1324, (z 1312 ⊛ (z 477 ⊛ z 533 ⊹ z 467 ⊛ z 487 ⊛ z 496 ⊹ z 474 ⊛ z 487 ⊛ z 528) ⊝ z 494 ⊛ (z 477
    ⊛ z 1304 ⊹ z 533 ⊛ z 1315 ⊹ z 467 ⊛ z 487 ⊛ z 1254 ⊹ z 474 ⊛ z 487 ⊛ z 1306 ⊹ z 487 ⊛ z 496 ⊛
    z 1322 ⊹ z 487 ⊛ z 528 ⊛ z 1323 ⊝ z 2 ⊛ z 3 ⊛ z 467 ⊛ z 496 ⊛ z 1280 ⊝ z 2 ⊛ z 3 ⊛ z 474 ⊛ z
    528 ⊛ z 1280)) ⊘ pow (z 494) 2),
(1325, z 1324 ⊛ u7 ⊝ z 1313 ⊛ u4 ⊝ z 1314 ⊛ u6)]

/-- _mooreriderlean2012.py:1948-2079 -/
def part13 : List (ℕ × E) := [
(1326, neg (z 7) ⊛ z 49 ⊝ z 8 ⊛ z 45),
(1327, rr ⊛ (z 54 ⊛ z 63 ⊹ z 54 ⊛ z 1326 ⊹ z 55 ⊛ z 60 ⊹ z 60 ⊛ z 220)),
(1328, z 8 ⊛ z 42 ⊝ z 7 ⊛ z 32),
(1329, rr ⊛ (z 54 ⊛ z 64 ⊹ z 61 ⊛ z 220 ⊹ z 43 ⊛ z 54 ⊛ z 1328 ⊹ z 43 ⊛ z 55 ⊛ z 58)),
(1330, z 3 ⊛ z 1329 ⊛ (z 462 ⊛ z 496 ⊝ z 463 ⊛ z 502)),
(1331, rr ⊛ (z 54 ⊛ z 65 ⊝ z 62 ⊛ z 220 ⊝ z 7 ⊛ z 48 ⊛ z 54 ⊝ z 8 ⊛ z 48 ⊛ z 55)),
(1332, z 3 ⊛ (z 225 ⊛ z 1329 ⊝ z 228 ⊛ z 1331)),
(1333, z 484 ⊛ z 1332 ⊹ z 2 ⊛ z 3 ⊛ z 480 ⊛ z 1331 ⊝ z 2 ⊛ z 3 ⊛ z 481 ⊛ z 1329),
(1334, z 3 ⊛ z 476 ⊛ z 1329 ⊛ (z 1 ⊛ z 484 ⊝ z 2 ⊛ z 489)),
(1335, (z 1334 ⊛ (z 460 ⊛ z 519 ⊹ z 465 ⊛ z 487 ⊛ z 496 ⊝ z 224 ⊛ z 504 ⊝ z 475 ⊛ z 533 ⊝ z 472 ⊛
    z 487 ⊛ z 528) ⊝ z 494 ⊛ (z 475 ⊛ z 1333 ⊹ z 3 ⊛ z 519 ⊛ z 1327 ⊹ z 2 ⊛ z 3 ⊛ z 465 ⊛ z 496 ⊛
    z 1329 ⊝ z 224 ⊛ z 1330 ⊝ z 2 ⊛ z 3 ⊛ z 472 ⊛ z 528 ⊛ z 1329)) ⊘ pow (z 494) 2),
(1336, z 227 ⊛ (z 494 ⊛ z 1330 ⊝ z 504 ⊛ z 1334) ⊘ pow (z 494) 2),
(1337, (z 1334 ⊛ (z 477 ⊛ z 533 ⊹ z 467 ⊛ z 487 ⊛ z 496 ⊹ z 474 ⊛ z 487 ⊛ z 528) ⊹ z 494 ⊛ (z 477
    ⊛ z 1333 ⊝ z 2 ⊛ z 3 ⊛ z 467 ⊛ z 496 ⊛ z 1329 ⊝ z 2 ⊛ z 3 ⊛ z 474 ⊛ z 528 ⊛ z 1329)) ⊘ pow (z
    494) 2),
(1338, z 1335 ⊛ u4 ⊹ z 1336 ⊛ u6 ⊝ z 1337 ⊛ u7),
(1339, z 3 ⊛ z 9 ⊝ z 4 ⊛ z 6 ⊛ z 10),
(1340, z 3 ⊛ z 6 ⊛ z 9 ⊝ z 4 ⊛ z 10),
(1341, z 9 ⊛ z 145 ⊹ z 10 ⊛ z 126 ⊹ d2 ⊛ z 43 ⊛ z 1340),
(1342, neg (z 3) ⊛ z 10 ⊝ z 4 ⊛ z 6 ⊛ z 9),
(1343, z 23 ⊛ z 1342 ⊹ z 25 ⊛ z 1339 ⊹ z 5 ⊛ z 9 ⊛ z 27 ⊝ z 5 ⊛ z 10 ⊛ z 29),
(1344, z 5 ⊛ z 9 ⊛ z 31 ⊝ z 6 ⊛ z 1342),
(1345, n 2 ⊛ z 33 ⊛ z 1344 ⊹ n 2 ⊛ z 34 ⊛ z 1343),
(1346, (n 2 ⊛ z 36 ⊛ z 1343 ⊝ z 34 ⊛ z 1345 ⊘ hpow (z 35) 1) ⊘ pow (z 36) 2),
(1347, z 40 ⊛ z 43 ⊛ z 1340 ⊹ qt 2 ⊛ rf ⊛ z 82 ⊛ z 1346),
(1348, z 4 ⊛ z 9 ⊹ z 3 ⊛ z 6 ⊛ z 10),
(1349, z 9 ⊛ z 126 ⊝ z 10 ⊛ z 145 ⊝ d2 ⊛ z 43 ⊛ z 1348),
(1350, (n 2 ⊛ z 36 ⊛ z 1344 ⊝ z 33 ⊛ z 1345 ⊘ hpow (z 35) 1) ⊘ pow (z 36) 2),
(1351, qt 2 ⊛ rf ⊛ z 11 ⊛ z 94 ⊛ z 1350 ⊝ qt 2 ⊛ rf ⊛ z 11 ⊛ z 90 ⊛ z 1346 ⊝ qt 2 ⊛ rf ⊛ z 12 ⊛ z
    90 ⊛ z 1350 ⊝ qt 2 ⊛ rf ⊛ z 12 ⊛ z 94 ⊛ z 1346 ⊝ z 40 ⊛ z 43 ⊛ z 1348 ⊛ pow (z 11) 2 ⊝ z 40 ⊛
    z 43 ⊛ z 1348 ⊛ pow (z 12) 2),
(1352, z 39 ⊛ z 43 ⊛ z 1340 ⊹ qt 2 ⊛ rf ⊛ z 82 ⊛ z 1350),
(1353, neg (z 1352) ⊝ d3 ⊛ z 43 ⊛ z 1340),
(1354, z 257 ⊛ z 1339 ⊹ z 259 ⊛ z 1342 ⊹ z 27 ⊛ (z 1341 ⊹ z 1347) ⊹ z 29 ⊛ (z 1349 ⊹ z 1351) ⊝ z
    31 ⊛ z 1353),
(1355, z 410 ⊛ z 1344 ⊹ z 5 ⊛ z 33 ⊛ z 1342),
(1356, (n 2 ⊛ z 35 ⊛ z 1355 ⊝ z 415 ⊛ z 1345) ⊘ hpow (z 35) 3),
(1357, (n 2 ⊛ z 33 ⊛ z 417 ⊛ z 1345 ⊘ hpow (z 35) 1 ⊹ z 36 ⊛ (n 2 ⊛ z 5 ⊛ z 36 ⊛ z 1342 ⊝ n 2 ⊛ z
    417 ⊛ z 1344 ⊝ z 33 ⊛ z 1356 ⊝ z 410 ⊛ z 1345 ⊘ hpow (z 35) 1)) ⊘ pow (z 36) 3),
(1358, (z 34 ⊛ z 36 ⊛ z 1356 ⊹ n 2 ⊛ z 36 ⊛ z 417 ⊛ z 1343 ⊝ n 2 ⊛ z 34 ⊛ z 417 ⊛ z 1345 ⊘ hpow (z
    35) 1) ⊘ pow (z 36) 3),
(1359, z 441 ⊛ z 1348 ⊹ qt 2 ⊛ rf ⊛ z 32 ⊛ z 1358 ⊝ qt 2 ⊛ rf ⊛ z 28 ⊛ z 1357),
(1360, z 25 ⊛ z 1343 ⊹ z 5 ⊛ z 9 ⊛ z 34),
(1361, (n 2 ⊛ z 35 ⊛ z 1360 ⊝ z 412 ⊛ z 1345) ⊘ hpow (z 35) 3),
(1362, (z 1345 ⊛ (z 25 ⊛ z 36 ⊝ n 2 ⊛ z 34 ⊛ z 418) ⊘ hpow (z 35) 1 ⊹ z 36 ⊛ (z 34 ⊛ z 1361 ⊹ n 2
    ⊛ z 418 ⊛ z 1343 ⊝ n 2 ⊛ z 5 ⊛ z 9 ⊛ z 36)) ⊘ pow (z 36) 3),
(1363, (z 33 ⊛ z 36 ⊛ z 1361 ⊹ n 2 ⊛ z 36 ⊛ z 418 ⊛ z 1344 ⊝ n 2 ⊛ z 33 ⊛ z 418 ⊛ z 1345 ⊘ hpow (z
    35) 1) ⊘ pow (z 36) 3),
(1364, neg (z 444) ⊛ z 1348 ⊝ qt 2 ⊛ rf ⊛ z 28 ⊛ z 1363 ⊝ qt 2 ⊛ rf ⊛ z 32 ⊛ z 1362),
(1365, z 25 ⊛ z 1344 ⊹ z 5 ⊛ z 9 ⊛ z 33),
(1366, (n 2 ⊛ z 35 ⊛ z 1365 ⊝ z 416 ⊛ z 1345) ⊘ hpow (z 35) 3),
(1367, (z 1345 ⊛ (z 25 ⊛ z 36 ⊝ n 2 ⊛ z 33 ⊛ z 420) ⊘ hpow (z 35) 1 ⊹ z 36 ⊛ (z 33 ⊛ z 1366 ⊹ n 2
    ⊛ z 420 ⊛ z 1344 ⊝ n 2 ⊛ z 5 ⊛ z 9 ⊛ z 36)) ⊘ pow (z 36) 3),
(1368, (z 34 ⊛ z 36 ⊛ z 1366 ⊹ n 2 ⊛ z 36 ⊛ z 420 ⊛ z 1343 ⊝ n 2 ⊛ z 34 ⊛ z 420 ⊛ z 1345 ⊘ hpow (z
    35) 1) ⊘ pow (z 36) 3),
(1369, z 443 ⊛ z 1348 ⊝ qt 2 ⊛ rf ⊛ z 28 ⊛ z 1367 ⊝ qt 2 ⊛ rf ⊛ z 32 ⊛ z 1368),
(1370, z 29 ⊛ z 1343 ⊹ z 34 ⊛ z 1342),
(1371, (n 2 ⊛ z 35 ⊛ z 1370 ⊝ z 414 ⊛ z 1345) ⊘ hpow (z 35) 3),
(1372, (z 1345 ⊛ (z 29 ⊛ z 36 ⊝ n 2 ⊛ z 34 ⊛ z 419) ⊘ hpow (z 35) 1 ⊝ z 36 ⊛ (n 2 ⊛ z 36 ⊛ z 1342
    ⊝ n 2 ⊛ z 419 ⊛ z 1343 ⊝ z 34 ⊛ z 1371)) ⊘ pow (z 36) 3),
(1373, (z 33 ⊛ z 36 ⊛ z 1371 ⊹ n 2 ⊛ z 36 ⊛ z 419 ⊛ z 1344 ⊝ n 2 ⊛ z 33 ⊛ z 419 ⊛ z 1345 ⊘ hpow (z
    35) 1) ⊘ pow (z 36) 3),
(1374, neg (z 445) ⊛ z 1348 ⊝ qt 2 ⊛ rf ⊛ z 28 ⊛ z 1373 ⊝ qt 2 ⊛ rf ⊛ z 32 ⊛ z 1372),
(1375, n 2 ⊛ z 27 ⊛ z 1343 ⊹ n 2 ⊛ z 31 ⊛ z 1344 ⊹ n 2 ⊛ z 34 ⊛ z 1339),
(1376, (n 2 ⊛ z 35 ⊛ z 1375 ⊝ z 413 ⊛ z 1345) ⊘ hpow (z 35) 3),
(1377, (z 36 ⊛ (z 33 ⊛ z 1376 ⊹ n 2 ⊛ z 422 ⊛ z 1344) ⊹ n 2 ⊛ z 1345 ⊛ (z 31 ⊛ z 36 ⊝ z 33 ⊛ z
    422) ⊘ hpow (z 35) 1) ⊘ pow (z 36) 3),
(1378, (n 2 ⊛ z 1345 ⊛ (z 27 ⊛ z 36 ⊝ z 34 ⊛ z 422) ⊘ hpow (z 35) 1 ⊝ z 36 ⊛ (n 4 ⊛ z 36 ⊛ z 1339
    ⊝ n 2 ⊛ z 422 ⊛ z 1343 ⊝ z 34 ⊛ z 1376)) ⊘ pow (z 36) 3),
(1379, qt 2 ⊛ z 442 ⊛ z 1348 ⊝ qt 1 ⊛ rf ⊛ z 28 ⊛ z 1377 ⊝ qt 1 ⊛ rf ⊛ z 32 ⊛ z 1378),
(1380, n 2 ⊛ z 23 ⊛ z 1343 ⊝ n 2 ⊛ z 6 ⊛ z 1344 ⊝ n 2 ⊛ z 5 ⊛ z 10 ⊛ z 34),
(1381, (n 2 ⊛ z 35 ⊛ z 1380 ⊝ z 411 ⊛ z 1345) ⊘ hpow (z 35) 3),
(1382, (n 2 ⊛ z 34 ⊛ z 421 ⊛ z 1345 ⊘ hpow (z 35) 1 ⊝ z 36 ⊛ (z 34 ⊛ z 1381 ⊹ n 2 ⊛ z 421 ⊛ z 1343
    ⊹ n 4 ⊛ z 5 ⊛ z 10 ⊛ z 36 ⊹ n 2 ⊛ z 23 ⊛ z 1345 ⊘ hpow (z 35) 1)) ⊘ pow (z 36) 3),
(1383, (n 2 ⊛ z 33 ⊛ z 421 ⊛ z 1345 ⊘ hpow (z 35) 1 ⊝ z 36 ⊛ (z 33 ⊛ z 1381 ⊹ n 2 ⊛ z 421 ⊛ z 1344
    ⊝ n 2 ⊛ z 6 ⊛ z 1345 ⊘ hpow (z 35) 1)) ⊘ pow (z 36) 3),
(1384, qt 1 ⊛ rf ⊛ z 28 ⊛ z 1383 ⊹ qt 1 ⊛ rf ⊛ z 32 ⊛ z 1382 ⊝ qt 2 ⊛ z 446 ⊛ z 1348),
(1385, z 1359 ⊹ z 6 ⊛ z 10 ⊛ z 454 ⊹ z 3 ⊛ z 5 ⊛ z 10 ⊛ z 449 ⊹ z 4 ⊛ z 5 ⊛ z 9 ⊛ z 1364 ⊝ z 4 ⊛ z
    6 ⊛ z 1369 ⊝ z 6 ⊛ z 9 ⊛ z 452 ⊝ z 6 ⊛ z 9 ⊛ z 1374 ⊝ z 6 ⊛ z 10 ⊛ z 1379 ⊝ z 4 ⊛ z 5 ⊛ z 9 ⊛
    z 451 ⊝ z 4 ⊛ z 5 ⊛ z 10 ⊛ z 453 ⊝ z 4 ⊛ z 5 ⊛ z 10 ⊛ z 1384 ⊝ qt 2 ⊛ rf ⊛ z 3 ⊛ z 6 ⊛ z 1346
    ⊝ qt 2 ⊛ rf ⊛ z 3 ⊛ z 5 ⊛ z 9 ⊛ z 1350),
(1386, z 473 ⊛ z 1385 ⊹ z 476 ⊛ z 1354),
(1387, qt 2 ⊛ rf ⊛ z 23 ⊛ z 83 ⊛ z 1346 ⊝ z 5 ⊛ z 10 ⊛ z 254 ⊝ qt 2 ⊛ rf ⊛ z 6 ⊛ z 83 ⊛ z 1350),
(1388, z 254 ⊛ z 1339 ⊹ qt 2 ⊛ rf ⊛ z 27 ⊛ z 83 ⊛ z 1346 ⊹ qt 2 ⊛ rf ⊛ z 31 ⊛ z 83 ⊛ z 1350),
(1389, z 470 ⊛ z 1385 ⊹ z 476 ⊛ z 1388),
(1390, z 6 ⊛ z 1353 ⊹ z 23 ⊛ (z 1341 ⊹ z 1347) ⊝ z 5 ⊛ z 9 ⊛ z 259 ⊝ z 5 ⊛ z 10 ⊛ z 257 ⊝ z 25 ⊛
    (z 1349 ⊹ z 1351)),
(1391, neg (z 9) ⊛ z 123 ⊝ z 10 ⊛ z 124),
(1392, z 23 ⊛ z 239 ⊝ z 25 ⊛ z 1391 ⊝ z 5 ⊛ z 9 ⊛ z 239 ⊝ z 5 ⊛ z 10 ⊛ z 234),
(1393, z 2 ⊛ z 1390 ⊝ z 228 ⊛ z 1392),
(1394, z 27 ⊛ z 239 ⊹ z 29 ⊛ z 1391 ⊹ z 234 ⊛ z 1339 ⊹ z 239 ⊛ z 1342),
(1395, z 469 ⊛ z 1385 ⊹ z 476 ⊛ z 1394),
(1396, z 515 ⊛ z 1386 ⊹ z 2 ⊛ z 499 ⊛ z 1387 ⊝ z 496 ⊛ z 1393 ⊝ z 513 ⊛ z 1389 ⊝ z 517 ⊛ z 1395 ⊝
    z 228 ⊛ z 502 ⊛ z 1387),
(1397, neg (z 31) ⊛ z 1348 ⊝ z 32 ⊛ z 1339),
(1398, z 39 ⊛ z 1397 ⊹ qt 2 ⊛ rf ⊛ z 77 ⊛ z 1350),
(1399, d2 ⊛ z 1397 ⊹ z 9 ⊛ z 147),
(1400, z 40 ⊛ z 1397 ⊹ qt 2 ⊛ rf ⊛ z 77 ⊛ z 1346),
(1401, neg (z 4) ⊛ z 9 ⊝ z 3 ⊛ z 6 ⊛ z 10),
(1402, z 27 ⊛ z 1340 ⊹ z 29 ⊛ z 1401 ⊹ z 30 ⊛ z 1339 ⊹ z 66 ⊛ z 1342),
(1403, z 4 ⊛ z 10 ⊝ z 3 ⊛ z 6 ⊛ z 9),
(1404, z 32 ⊛ z 1342 ⊝ z 31 ⊛ z 1403),
(1405, d3 ⊛ z 1402 ⊝ d2 ⊛ z 1404),
(1406, z 11 ⊛ z 1402 ⊹ z 12 ⊛ z 1404),
(1407, z 11 ⊛ z 1404 ⊝ z 12 ⊛ z 1402),
(1408, z 11 ⊛ z 39 ⊛ z 1406 ⊹ qt 2 ⊛ rf ⊛ z 11 ⊛ z 97 ⊛ z 1350 ⊝ z 11 ⊛ z 40 ⊛ z 1407 ⊝ z 12 ⊛ z
    39 ⊛ z 1407 ⊝ z 12 ⊛ z 40 ⊛ z 1406 ⊝ qt 2 ⊛ rf ⊛ z 11 ⊛ z 92 ⊛ z 1346 ⊝ qt 2 ⊛ rf ⊛ z 12 ⊛ z
    92 ⊛ z 1350 ⊝ qt 2 ⊛ rf ⊛ z 12 ⊛ z 97 ⊛ z 1346),
(1409, z 1405 ⊹ z 1408 ⊝ z 10 ⊛ z 147),
(1410, z 23 ⊛ (z 1399 ⊹ z 1400) ⊝ z 25 ⊛ z 1409 ⊝ z 5 ⊛ z 9 ⊛ z 261 ⊝ z 5 ⊛ z 10 ⊛ z 256 ⊝ z 6 ⊛
    (z 1398 ⊹ d3 ⊛ z 1397)),
(1411, z 457 ⊛ z 1390 ⊹ z 458 ⊛ z 1392),
(1412, z 498 ⊛ z 1386 ⊹ z 501 ⊛ z 1395 ⊹ z 457 ⊛ z 499 ⊛ z 1387 ⊹ z 458 ⊛ z 502 ⊛ z 1387 ⊝ z 495 ⊛
    z 1389 ⊝ z 496 ⊛ z 1411),
(1413, z 3 ⊛ z 5 ⊛ z 1369 ⊹ z 1364 ⊛ (z 3 ⊛ z 24 ⊝ z 4 ⊛ z 10) ⊹ qt 2 ⊛ rf ⊛ z 1350 ⊛ (z 3 ⊛ z 10
    ⊹ z 4 ⊛ z 24) ⊹ z 449 ⊛ (z 3 ⊛ z 9 ⊝ z 4 ⊛ z 6 ⊛ z 10) ⊹ z 451 ⊛ (z 4 ⊛ z 10 ⊝ z 3 ⊛ z 6 ⊛ z
    9) ⊝ qt 2 ⊛ rf ⊛ z 4 ⊛ z 5 ⊛ z 1346 ⊝ z 1384 ⊛ (z 3 ⊛ z 26 ⊹ z 4 ⊛ z 9) ⊝ z 453 ⊛ (z 4 ⊛ z 9 ⊹
    z 3 ⊛ z 6 ⊛ z 10)),
(1414, z 41 ⊛ z 1339 ⊝ z 42 ⊛ z 1348 ⊝ z 10 ⊛ pow (z 5) 2),
(1415, z 39 ⊛ z 1414 ⊹ qt 2 ⊛ rf ⊛ z 76 ⊛ z 1350),
(1416, d2 ⊛ z 1414 ⊹ z 9 ⊛ z 143),
(1417, z 40 ⊛ z 1414 ⊹ qt 2 ⊛ rf ⊛ z 76 ⊛ z 1346)]

/-- _mooreriderlean2012.py:2080-2204 -/
def part14 : List (ℕ × E) := [
(1418, z 67 ⊛ z 1342 ⊹ z 5 ⊛ z 9 ⊛ z 24 ⊹ z 3 ⊛ z 5 ⊛ z 10 ⊛ z 30 ⊝ z 68 ⊛ z 1340 ⊝ z 6 ⊛ z 10 ⊛ z
    25 ⊝ z 4 ⊛ z 5 ⊛ z 10 ⊛ z 29),
(1419, z 9 ⊛ (pow (z 6) 2 ⊹ z 3 ⊛ z 5 ⊛ z 32 ⊹ z 4 ⊛ z 5 ⊛ z 31)),
(1420, d3 ⊛ z 1418 ⊝ d2 ⊛ z 1419),
(1421, z 11 ⊛ z 1418 ⊹ z 12 ⊛ z 1419),
(1422, z 11 ⊛ z 1419 ⊝ z 12 ⊛ z 1418),
(1423, z 11 ⊛ z 39 ⊛ z 1421 ⊹ qt 2 ⊛ rf ⊛ z 11 ⊛ z 95 ⊛ z 1350 ⊝ z 11 ⊛ z 40 ⊛ z 1422 ⊝ z 12 ⊛ z
    39 ⊛ z 1422 ⊝ z 12 ⊛ z 40 ⊛ z 1421 ⊝ qt 2 ⊛ rf ⊛ z 11 ⊛ z 91 ⊛ z 1346 ⊝ qt 2 ⊛ rf ⊛ z 12 ⊛ z
    91 ⊛ z 1350 ⊝ qt 2 ⊛ rf ⊛ z 12 ⊛ z 95 ⊛ z 1346),
(1424, z 1420 ⊹ z 1423 ⊝ z 10 ⊛ z 143),
(1425, z 23 ⊛ (z 1416 ⊹ z 1417) ⊝ z 25 ⊛ z 1424 ⊝ z 5 ⊛ z 9 ⊛ z 260 ⊝ z 5 ⊛ z 10 ⊛ z 255 ⊝ z 6 ⊛
    (z 1415 ⊹ d3 ⊛ z 1414)),
(1426, z 29 ⊛ z 1424 ⊹ z 255 ⊛ z 1339 ⊹ z 260 ⊛ z 1342 ⊹ z 27 ⊛ (z 1416 ⊹ z 1417) ⊹ z 31 ⊛ (z 1415
    ⊹ d3 ⊛ z 1414)),
(1427, z 464 ⊛ z 1388 ⊹ z 470 ⊛ z 1425 ⊝ z 463 ⊛ z 1426 ⊝ z 471 ⊛ z 1387),
(1428, z 462 ⊛ z 1388 ⊹ z 470 ⊛ z 1392 ⊝ z 463 ⊛ z 1394 ⊝ z 469 ⊛ z 1387),
(1429, z 466 ⊛ z 1388 ⊹ z 470 ⊛ z 1390 ⊝ z 463 ⊛ z 1354 ⊝ z 473 ⊛ z 1387),
(1430, z 487 ⊛ z 1427 ⊹ z 492 ⊛ z 1428 ⊝ z 490 ⊛ z 1429),
(1431, z 29 ⊛ z 1409 ⊹ z 256 ⊛ z 1339 ⊹ z 261 ⊛ z 1342 ⊹ z 27 ⊛ (z 1399 ⊹ z 1400) ⊹ z 31 ⊛ (z 1398
    ⊹ d3 ⊛ z 1397)),
(1432, z 463 ⊛ z 1385 ⊹ z 476 ⊛ z 1387),
(1433, z 10 ⊛ z 121 ⊝ z 9 ⊛ z 120),
(1434, z 23 ⊛ z 238 ⊝ z 25 ⊛ z 1433 ⊝ z 5 ⊛ z 9 ⊛ z 238 ⊝ z 5 ⊛ z 10 ⊛ z 233),
(1435, z 27 ⊛ z 238 ⊹ z 29 ⊛ z 1433 ⊹ z 233 ⊛ z 1339 ⊹ z 238 ⊛ z 1342),
(1436, z 461 ⊛ z 1388 ⊹ z 470 ⊛ z 1434 ⊝ z 463 ⊛ z 1435 ⊝ z 468 ⊛ z 1387),
(1437, z 476 ⊛ (z 482 ⊛ z 1428 ⊝ z 478 ⊛ z 1429 ⊝ z 487 ⊛ z 1436) ⊹ z 1385 ⊛ (z 482 ⊛ z 484 ⊝ z
    478 ⊛ z 480 ⊝ z 487 ⊛ z 489)),
(1438, (z 1437 ⊛ (z 460 ⊛ z 519 ⊹ z 465 ⊛ z 487 ⊛ z 496 ⊝ z 224 ⊛ z 504 ⊝ z 475 ⊛ z 533 ⊝ z 472 ⊛
    z 487 ⊛ z 528) ⊝ z 494 ⊛ (z 460 ⊛ z 1396 ⊹ z 465 ⊛ z 487 ⊛ z 1389 ⊹ z 487 ⊛ z 496 ⊛ z 1410 ⊝ z
    224 ⊛ z 1412 ⊝ z 475 ⊛ z 1430 ⊝ z 533 ⊛ z 1413 ⊝ z 472 ⊛ z 487 ⊛ z 1432 ⊝ z 487 ⊛ z 528 ⊛ z
    1431)) ⊘ pow (z 494) 2),
(1439, z 227 ⊛ (z 494 ⊛ z 1412 ⊝ z 504 ⊛ z 1437) ⊘ pow (z 494) 2),
(1440, z 5 ⊛ z 9 ⊛ z 1379 ⊹ z 1364 ⊛ (z 3 ⊛ z 9 ⊝ z 4 ⊛ z 6 ⊛ z 10) ⊹ qt 2 ⊛ rf ⊛ z 1350 ⊛ (z 4 ⊛
    z 9 ⊹ z 3 ⊛ z 6 ⊛ z 10) ⊝ z 5 ⊛ z 9 ⊛ z 454 ⊝ z 5 ⊛ z 10 ⊛ z 452 ⊝ z 5 ⊛ z 10 ⊛ z 1374 ⊝ z 453
    ⊛ (z 3 ⊛ z 10 ⊹ z 4 ⊛ z 6 ⊛ z 9) ⊝ z 1384 ⊛ (z 3 ⊛ z 10 ⊹ z 4 ⊛ z 6 ⊛ z 9) ⊝ z 449 ⊛ (z 4 ⊛ z
    10 ⊝ z 3 ⊛ z 6 ⊛ z 9) ⊝ z 451 ⊛ (z 3 ⊛ z 9 ⊝ z 4 ⊛ z 6 ⊛ z 10)),
(1441, n 2 ⊛ z 29 ⊛ z 1342 ⊹ n 2 ⊛ z 30 ⊛ z 1340 ⊹ n 2 ⊛ z 5 ⊛ z 9 ⊛ z 25),
(1442, z 4 ⊛ z 6 ⊛ z 10 ⊝ z 3 ⊛ z 9),
(1443, z 32 ⊛ z 1401 ⊹ z 5 ⊛ z 6 ⊛ z 10 ⊝ z 31 ⊛ z 1442),
(1444, d3 ⊛ z 1441 ⊝ d2 ⊛ z 1443),
(1445, z 11 ⊛ z 1441 ⊹ z 12 ⊛ z 1443),
(1446, z 11 ⊛ z 1443 ⊝ z 12 ⊛ z 1441),
(1447, z 11 ⊛ z 39 ⊛ z 1445 ⊹ qt 2 ⊛ rf ⊛ z 11 ⊛ z 96 ⊛ z 1350 ⊝ z 11 ⊛ z 40 ⊛ z 1446 ⊝ z 12 ⊛ z
    39 ⊛ z 1446 ⊝ z 12 ⊛ z 40 ⊛ z 1445 ⊝ qt 2 ⊛ rf ⊛ z 11 ⊛ z 93 ⊛ z 1346 ⊝ qt 2 ⊛ rf ⊛ z 12 ⊛ z
    93 ⊛ z 1350 ⊝ qt 2 ⊛ rf ⊛ z 12 ⊛ z 96 ⊛ z 1346),
(1448, z 5 ⊛ z 9 ⊛ z 258 ⊹ z 25 ⊛ (z 1444 ⊹ z 1447)),
(1449, z 258 ⊛ z 1342 ⊹ z 29 ⊛ (z 1444 ⊹ z 1447)),
(1450, (z 1437 ⊛ (z 477 ⊛ z 533 ⊹ z 467 ⊛ z 487 ⊛ z 496 ⊹ z 474 ⊛ z 487 ⊛ z 528) ⊝ z 494 ⊛ (z 477
    ⊛ z 1430 ⊹ z 533 ⊛ z 1440 ⊹ z 467 ⊛ z 487 ⊛ z 1389 ⊹ z 474 ⊛ z 487 ⊛ z 1432 ⊹ z 487 ⊛ z 496 ⊛
    z 1448 ⊹ z 487 ⊛ z 528 ⊛ z 1449)) ⊘ pow (z 494) 2),
(1451, z 1450 ⊛ u7 ⊝ z 1438 ⊛ u4 ⊝ z 1439 ⊛ u6),
(1452, neg (z 11) ⊛ z 32 ⊝ z 12 ⊛ z 28),
(1453, z 12 ⊛ z 40 ⊛ z 90 ⊹ z 11 ⊛ z 39 ⊛ z 43 ⊛ z 88 ⊝ z 11 ⊛ z 39 ⊛ z 90 ⊝ z 11 ⊛ z 40 ⊛ z 94 ⊝
    z 12 ⊛ z 39 ⊛ z 94 ⊝ z 11 ⊛ z 40 ⊛ z 43 ⊛ z 1452 ⊝ z 12 ⊛ z 39 ⊛ z 43 ⊛ z 1452 ⊝ z 12 ⊛ z 40 ⊛
    z 43 ⊛ z 88),
(1454, z 1453 ⊛ (z 2 ⊛ z 25 ⊛ z 496 ⊹ z 29 ⊛ z 476 ⊛ z 515)),
(1455, neg (z 11) ⊛ z 80 ⊝ z 12 ⊛ z 74),
(1456, neg (z 11) ⊛ z 40 ⊛ z 97 ⊝ z 11 ⊛ z 40 ⊛ z 1455 ⊝ z 12 ⊛ z 39 ⊛ z 97 ⊝ z 12 ⊛ z 39 ⊛ z
    1455),
(1457, z 1453 ⊛ (z 25 ⊛ z 457 ⊛ z 496 ⊹ z 29 ⊛ z 476 ⊛ z 498)),
(1458, neg (z 11) ⊛ z 78 ⊝ z 12 ⊛ z 73),
(1459, neg (z 11) ⊛ z 40 ⊛ z 95 ⊝ z 11 ⊛ z 40 ⊛ z 1458 ⊝ z 12 ⊛ z 39 ⊛ z 95 ⊝ z 12 ⊛ z 39 ⊛ z
    1458),
(1460, z 1459 ⊛ (z 25 ⊛ z 470 ⊹ z 29 ⊛ z 463)),
(1461, z 1453 ⊛ (z 25 ⊛ z 470 ⊹ z 29 ⊛ z 463)),
(1462, z 490 ⊛ z 1461 ⊝ z 487 ⊛ z 1460),
(1463, (z 476 ⊛ z 478 ⊛ z 1461 ⊛ (z 460 ⊛ z 519 ⊹ z 465 ⊛ z 487 ⊛ z 496 ⊝ z 224 ⊛ z 504 ⊝ z 475 ⊛
    z 533 ⊝ z 472 ⊛ z 487 ⊛ z 528) ⊝ z 494 ⊛ (z 460 ⊛ z 1454 ⊝ z 224 ⊛ z 1457 ⊝ z 475 ⊛ z 1462 ⊝ z
    25 ⊛ z 487 ⊛ z 496 ⊛ z 1456 ⊝ z 29 ⊛ z 487 ⊛ z 528 ⊛ z 1456)) ⊘ pow (z 494) 2),
(1464, z 227 ⊛ (z 494 ⊛ z 1457 ⊝ z 476 ⊛ z 478 ⊛ z 504 ⊛ z 1461) ⊘ pow (z 494) 2),
(1465, neg (z 11) ⊛ z 79 ⊝ z 12 ⊛ z 75),
(1466, neg (z 11) ⊛ z 40 ⊛ z 96 ⊝ z 11 ⊛ z 40 ⊛ z 1465 ⊝ z 12 ⊛ z 39 ⊛ z 96 ⊝ z 12 ⊛ z 39 ⊛ z
    1465),
(1467, (z 476 ⊛ z 478 ⊛ z 1461 ⊛ (z 477 ⊛ z 533 ⊹ z 467 ⊛ z 487 ⊛ z 496 ⊹ z 474 ⊛ z 487 ⊛ z 528) ⊝
    z 494 ⊛ (z 477 ⊛ z 1462 ⊹ z 25 ⊛ z 487 ⊛ z 496 ⊛ z 1466 ⊹ z 29 ⊛ z 487 ⊛ z 528 ⊛ z 1466)) ⊘
    pow (z 494) 2),
(1468, z 1467 ⊛ u7 ⊝ z 1463 ⊛ u4 ⊝ z 1464 ⊛ u6),
(1469, z 1 ⊛ z 463 ⊛ (pow (z 3) 2 ⊹ pow (z 4) 2)),
(1470, z 458 ⊛ z 1053 ⊝ z 1 ⊛ z 466 ⊛ (pow (z 3) 2 ⊹ pow (z 4) 2)),
(1471, z 476 ⊛ z 501 ⊛ z 1054 ⊝ z 496 ⊛ z 1470 ⊝ z 499 ⊛ z 1469),
(1472, z 227 ⊛ (z 494 ⊛ z 1471 ⊝ z 509 ⊛ z 1056) ⊘ pow (z 494) 2),
(1473, z 1 ⊛ z 225 ⊛ (pow (z 3) 2 ⊹ pow (z 4) 2) ⊝ z 2 ⊛ z 459),
(1474, z 481 ⊛ z 1047 ⊹ z 492 ⊛ z 1055 ⊝ z 480 ⊛ z 1473),
(1475, (z 494 ⊛ (z 477 ⊛ z 1474 ⊹ z 467 ⊛ z 496 ⊛ z 1047 ⊹ z 474 ⊛ z 528 ⊛ z 1047) ⊝ z 1056 ⊛ (z
    477 ⊛ z 534 ⊹ z 467 ⊛ z 482 ⊛ z 496 ⊹ z 474 ⊛ z 482 ⊛ z 528)) ⊘ pow (z 494) 2),
(1476, neg (z 2) ⊛ z 466 ⊝ z 228 ⊛ z 1053),
(1477, neg (z 496) ⊛ z 1476 ⊝ z 2 ⊛ z 463 ⊛ z 499 ⊝ z 476 ⊛ z 517 ⊛ z 1054),
(1478, (z 494 ⊛ (z 460 ⊛ z 1477 ⊹ z 465 ⊛ z 496 ⊛ z 1047 ⊝ z 224 ⊛ z 1471 ⊝ z 475 ⊛ z 1474 ⊝ z 472
    ⊛ z 528 ⊛ z 1047) ⊝ z 1056 ⊛ (z 460 ⊛ z 523 ⊹ z 465 ⊛ z 482 ⊛ z 496 ⊝ z 224 ⊛ z 509 ⊝ z 475 ⊛
    z 534 ⊝ z 472 ⊛ z 482 ⊛ z 528)) ⊘ pow (z 494) 2),
(1479, z 1472 ⊛ u6 ⊹ z 1475 ⊛ u7 ⊝ z 1478 ⊛ u4),
(1480, z 463 ⊛ z 1178 ⊝ qt 2 ⊛ z 456 ⊛ z 1115),
(1481, z 468 ⊛ z 1113 ⊹ z 476 ⊛ z 1184),
(1482, z 456 ⊛ z 1118 ⊹ z 458 ⊛ z 1183 ⊹ z 461 ⊛ z 1144 ⊹ z 466 ⊛ z 1178),
(1483, z 499 ⊛ z 1480 ⊹ z 501 ⊛ z 1481 ⊹ z 507 ⊛ z 1114 ⊹ z 508 ⊛ z 1148 ⊝ z 496 ⊛ z 1482 ⊝ z 505
    ⊛ z 1117),
(1484, z 227 ⊛ (z 494 ⊛ z 1483 ⊝ z 509 ⊛ z 1186) ⊘ pow (z 494) 2),
(1485, z 1 ⊛ z 1171 ⊝ z 225 ⊛ z 1178 ⊝ n 2 ⊛ rr ⊛ z 456 ⊛ z 1152),
(1486, z 481 ⊛ z 1179 ⊹ z 482 ⊛ z 1168 ⊹ z 489 ⊛ z 1172 ⊹ z 492 ⊛ z 1185 ⊝ z 480 ⊛ z 1485 ⊝ z 485
    ⊛ z 1173),
(1487, (z 1186 ⊛ (z 477 ⊛ z 534 ⊹ z 467 ⊛ z 482 ⊛ z 496 ⊹ z 474 ⊛ z 482 ⊛ z 528) ⊝ z 494 ⊛ (z 477
    ⊛ z 1486 ⊹ z 534 ⊛ z 1189 ⊹ z 467 ⊛ z 482 ⊛ z 1117 ⊹ z 467 ⊛ z 496 ⊛ z 1179 ⊹ z 474 ⊛ z 482 ⊛
    z 1177 ⊹ z 474 ⊛ z 528 ⊛ z 1179 ⊹ z 482 ⊛ z 528 ⊛ z 1195 ⊹ z 25 ⊛ z 482 ⊛ z 496 ⊛ (z 1191 ⊹ z
    1194))) ⊘ pow (z 494) 2),
(1488, z 1 ⊛ z 1118 ⊝ z 228 ⊛ z 1183),
(1489, z 522 ⊛ z 1114 ⊹ qt 2 ⊛ z 228 ⊛ z 508 ⊛ z 1115 ⊝ z 496 ⊛ z 1488 ⊝ z 517 ⊛ z 1481 ⊝ z 520 ⊛
    z 1117 ⊝ qt 2 ⊛ z 1 ⊛ z 499 ⊛ z 1115),
(1490, (z 1186 ⊛ (z 460 ⊛ z 523 ⊹ z 465 ⊛ z 482 ⊛ z 496 ⊝ z 224 ⊛ z 509 ⊝ z 475 ⊛ z 534 ⊝ z 472 ⊛
    z 482 ⊛ z 528) ⊝ z 494 ⊛ (z 460 ⊛ z 1489 ⊹ z 523 ⊛ z 1065 ⊹ z 465 ⊛ z 482 ⊛ z 1117 ⊹ z 465 ⊛ z
    496 ⊛ z 1179 ⊹ z 482 ⊛ z 496 ⊛ z 1140 ⊝ z 224 ⊛ z 1483 ⊝ z 475 ⊛ z 1486 ⊝ z 534 ⊛ z 1151 ⊝ rr
    ⊛ z 509 ⊛ z 1126 ⊝ z 472 ⊛ z 482 ⊛ z 1177 ⊝ z 472 ⊛ z 528 ⊛ z 1179 ⊝ z 482 ⊛ z 528 ⊛ z 1176))
    ⊘ pow (z 494) 2),
(1491, z 1484 ⊛ u6 ⊹ z 1490 ⊛ u4 ⊝ z 1487 ⊛ u7),
(1492, z 468 ⊛ z 1250 ⊹ z 476 ⊛ z 1310),
(1493, z 456 ⊛ z 1255 ⊹ z 458 ⊛ z 1309 ⊹ z 3 ⊛ z 461 ⊛ z 1280),
(1494, z 501 ⊛ z 1492 ⊹ z 507 ⊛ z 1251 ⊹ z 508 ⊛ z 1281 ⊹ z 456 ⊛ z 499 ⊛ z 1252 ⊝ z 496 ⊛ z 1493
    ⊝ z 505 ⊛ z 1254),
(1495, z 227 ⊛ (z 494 ⊛ z 1494 ⊝ z 509 ⊛ z 1312) ⊘ pow (z 494) 2),
(1496, n 2 ⊛ rr ⊛ z 456 ⊛ z 1285 ⊝ z 1 ⊛ z 3 ⊛ z 1300),
(1497, z 482 ⊛ z 1298 ⊹ z 489 ⊛ z 1301 ⊹ z 492 ⊛ z 1311 ⊝ z 480 ⊛ z 1496 ⊝ z 485 ⊛ z 1302 ⊝ z 1 ⊛
    z 3 ⊛ z 481 ⊛ z 1280)]

/-- _mooreriderlean2012.py:2205-2327 -/
def part15 : List (ℕ × E) := [
(1498, (z 1312 ⊛ (z 477 ⊛ z 534 ⊹ z 467 ⊛ z 482 ⊛ z 496 ⊹ z 474 ⊛ z 482 ⊛ z 528) ⊝ z 494 ⊛ (z 477
    ⊛ z 1497 ⊹ z 534 ⊛ z 1315 ⊹ z 467 ⊛ z 482 ⊛ z 1254 ⊹ z 474 ⊛ z 482 ⊛ z 1306 ⊹ z 482 ⊛ z 496 ⊛
    z 1322 ⊹ z 482 ⊛ z 528 ⊛ z 1323 ⊝ z 1 ⊛ z 3 ⊛ z 467 ⊛ z 496 ⊛ z 1280 ⊝ z 1 ⊛ z 3 ⊛ z 474 ⊛ z
    528 ⊛ z 1280)) ⊘ pow (z 494) 2),
(1499, z 1 ⊛ z 1255 ⊝ z 228 ⊛ z 1309),
(1500, z 522 ⊛ z 1251 ⊹ z 1 ⊛ z 499 ⊛ z 1252 ⊝ z 496 ⊛ z 1499 ⊝ z 517 ⊛ z 1492 ⊝ z 520 ⊛ z 1254 ⊝
    z 228 ⊛ z 508 ⊛ z 1252),
(1501, (z 1312 ⊛ (z 460 ⊛ z 523 ⊹ z 465 ⊛ z 482 ⊛ z 496 ⊝ z 224 ⊛ z 509 ⊝ z 475 ⊛ z 534 ⊝ z 472 ⊛
    z 482 ⊛ z 528) ⊹ z 494 ⊛ (z 224 ⊛ z 1494 ⊹ z 475 ⊛ z 1497 ⊹ z 534 ⊛ z 1284 ⊹ rr ⊛ z 509 ⊛ z
    1263 ⊹ z 472 ⊛ z 482 ⊛ z 1306 ⊹ z 482 ⊛ z 528 ⊛ z 1305 ⊹ z 1 ⊛ z 3 ⊛ z 465 ⊛ z 496 ⊛ z 1280 ⊝
    z 460 ⊛ z 1500 ⊝ z 3 ⊛ z 523 ⊛ z 1200 ⊝ z 465 ⊛ z 482 ⊛ z 1254 ⊝ z 482 ⊛ z 496 ⊛ z 1277 ⊝ z 1
    ⊛ z 3 ⊛ z 472 ⊛ z 528 ⊛ z 1280)) ⊘ pow (z 494) 2),
(1502, z 1495 ⊛ u6 ⊹ z 1501 ⊛ u4 ⊝ z 1498 ⊛ u7),
(1503, z 3 ⊛ z 1329 ⊛ (z 461 ⊛ z 496 ⊝ z 463 ⊛ z 508)),
(1504, z 227 ⊛ (z 494 ⊛ z 1503 ⊝ z 509 ⊛ z 1334) ⊘ pow (z 494) 2),
(1505, z 489 ⊛ z 1332 ⊹ z 1 ⊛ z 3 ⊛ z 480 ⊛ z 1331 ⊝ z 1 ⊛ z 3 ⊛ z 481 ⊛ z 1329),
(1506, (z 1334 ⊛ (z 477 ⊛ z 534 ⊹ z 467 ⊛ z 482 ⊛ z 496 ⊹ z 474 ⊛ z 482 ⊛ z 528) ⊹ z 494 ⊛ (z 477
    ⊛ z 1505 ⊝ z 1 ⊛ z 3 ⊛ z 467 ⊛ z 496 ⊛ z 1329 ⊝ z 1 ⊛ z 3 ⊛ z 474 ⊛ z 528 ⊛ z 1329)) ⊘ pow (z
    494) 2),
(1507, (z 1334 ⊛ (z 460 ⊛ z 523 ⊹ z 465 ⊛ z 482 ⊛ z 496 ⊝ z 224 ⊛ z 509 ⊝ z 475 ⊛ z 534 ⊝ z 472 ⊛
    z 482 ⊛ z 528) ⊝ z 494 ⊛ (z 475 ⊛ z 1505 ⊹ z 3 ⊛ z 523 ⊛ z 1327 ⊹ z 1 ⊛ z 3 ⊛ z 465 ⊛ z 496 ⊛
    z 1329 ⊝ z 224 ⊛ z 1503 ⊝ z 1 ⊛ z 3 ⊛ z 472 ⊛ z 528 ⊛ z 1329)) ⊘ pow (z 494) 2),
(1508, z 1506 ⊛ u7 ⊝ z 1504 ⊛ u6 ⊝ z 1507 ⊛ u4),
(1509, z 468 ⊛ z 1385 ⊹ z 476 ⊛ z 1435),
(1510, z 456 ⊛ z 1390 ⊹ z 458 ⊛ z 1434),
(1511, z 501 ⊛ z 1509 ⊹ z 507 ⊛ z 1386 ⊹ z 456 ⊛ z 499 ⊛ z 1387 ⊹ z 458 ⊛ z 508 ⊛ z 1387 ⊝ z 496 ⊛
    z 1510 ⊝ z 505 ⊛ z 1389),
(1512, z 227 ⊛ (z 494 ⊛ z 1511 ⊝ z 509 ⊛ z 1437) ⊘ pow (z 494) 2),
(1513, z 482 ⊛ z 1427 ⊹ z 492 ⊛ z 1436 ⊝ z 485 ⊛ z 1429),
(1514, (z 1437 ⊛ (z 477 ⊛ z 534 ⊹ z 467 ⊛ z 482 ⊛ z 496 ⊹ z 474 ⊛ z 482 ⊛ z 528) ⊝ z 494 ⊛ (z 477
    ⊛ z 1513 ⊹ z 534 ⊛ z 1440 ⊹ z 467 ⊛ z 482 ⊛ z 1389 ⊹ z 474 ⊛ z 482 ⊛ z 1432 ⊹ z 482 ⊛ z 496 ⊛
    z 1448 ⊹ z 482 ⊛ z 528 ⊛ z 1449)) ⊘ pow (z 494) 2),
(1515, z 1 ⊛ z 1390 ⊝ z 228 ⊛ z 1434),
(1516, z 522 ⊛ z 1386 ⊹ z 1 ⊛ z 499 ⊛ z 1387 ⊝ z 496 ⊛ z 1515 ⊝ z 517 ⊛ z 1509 ⊝ z 520 ⊛ z 1389 ⊝
    z 228 ⊛ z 508 ⊛ z 1387),
(1517, (z 1437 ⊛ (z 460 ⊛ z 523 ⊹ z 465 ⊛ z 482 ⊛ z 496 ⊝ z 224 ⊛ z 509 ⊝ z 475 ⊛ z 534 ⊝ z 472 ⊛
    z 482 ⊛ z 528) ⊝ z 494 ⊛ (z 460 ⊛ z 1516 ⊹ z 465 ⊛ z 482 ⊛ z 1389 ⊹ z 482 ⊛ z 496 ⊛ z 1410 ⊝ z
    224 ⊛ z 1511 ⊝ z 475 ⊛ z 1513 ⊝ z 534 ⊛ z 1413 ⊝ z 472 ⊛ z 482 ⊛ z 1432 ⊝ z 482 ⊛ z 528 ⊛ z
    1431)) ⊘ pow (z 494) 2),
(1518, z 1512 ⊛ u6 ⊹ z 1517 ⊛ u4 ⊝ z 1514 ⊛ u7),
(1519, z 1453 ⊛ (z 25 ⊛ z 456 ⊛ z 496 ⊹ z 29 ⊛ z 476 ⊛ z 507)),
(1520, z 227 ⊛ (z 494 ⊛ z 1519 ⊝ z 476 ⊛ z 478 ⊛ z 509 ⊛ z 1461) ⊘ pow (z 494) 2),
(1521, z 485 ⊛ z 1461 ⊝ z 482 ⊛ z 1460),
(1522, (z 476 ⊛ z 478 ⊛ z 1461 ⊛ (z 477 ⊛ z 534 ⊹ z 467 ⊛ z 482 ⊛ z 496 ⊹ z 474 ⊛ z 482 ⊛ z 528) ⊝
    z 494 ⊛ (z 477 ⊛ z 1521 ⊹ z 25 ⊛ z 482 ⊛ z 496 ⊛ z 1466 ⊹ z 29 ⊛ z 482 ⊛ z 528 ⊛ z 1466)) ⊘
    pow (z 494) 2),
(1523, z 1453 ⊛ (z 1 ⊛ z 25 ⊛ z 496 ⊹ z 29 ⊛ z 476 ⊛ z 522)),
(1524, (z 476 ⊛ z 478 ⊛ z 1461 ⊛ (z 460 ⊛ z 523 ⊹ z 465 ⊛ z 482 ⊛ z 496 ⊝ z 224 ⊛ z 509 ⊝ z 475 ⊛
    z 534 ⊝ z 472 ⊛ z 482 ⊛ z 528) ⊝ z 494 ⊛ (z 460 ⊛ z 1523 ⊝ z 224 ⊛ z 1519 ⊝ z 475 ⊛ z 1521 ⊝ z
    25 ⊛ z 482 ⊛ z 496 ⊛ z 1456 ⊝ z 29 ⊛ z 482 ⊛ z 528 ⊛ z 1456)) ⊘ pow (z 494) 2),
(1525, z 1520 ⊛ u6 ⊹ z 1524 ⊛ u4 ⊝ z 1522 ⊛ u7),
(1526, z 1 ⊛ z 1036 ⊝ z 1 ⊛ z 461 ⊝ z 2 ⊛ z 462 ⊝ z 2 ⊛ z 1053),
(1527, z 476 ⊛ z 522 ⊛ z 1038 ⊝ z 496 ⊛ z 1526 ⊝ z 1 ⊛ z 463 ⊛ z 508 ⊝ z 2 ⊛ z 463 ⊛ z 502 ⊝ z 476
    ⊛ z 515 ⊛ z 1054),
(1528, z 456 ⊛ z 1036 ⊹ z 2 ⊛ z 461 ⊛ (pow (z 3) 2 ⊹ pow (z 4) 2) ⊝ z 457 ⊛ z 1053 ⊝ z 1 ⊛ z 462 ⊛
    (pow (z 3) 2 ⊹ pow (z 4) 2)),
(1529, z 508 ⊛ z 1041 ⊹ z 476 ⊛ z 507 ⊛ z 1038 ⊝ z 496 ⊛ z 1528 ⊝ z 502 ⊛ z 1469 ⊝ z 476 ⊛ z 498 ⊛
    z 1054),
(1530, z 481 ⊛ z 1048 ⊹ z 489 ⊛ z 1045 ⊹ z 490 ⊛ z 1055 ⊝ z 484 ⊛ z 1473 ⊝ z 485 ⊛ z 1044),
(1531, (z 494 ⊛ (z 460 ⊛ z 1527 ⊹ z 465 ⊛ z 496 ⊛ z 1048 ⊝ z 224 ⊛ z 1529 ⊝ z 475 ⊛ z 1530 ⊝ z 472
    ⊛ z 528 ⊛ z 1048) ⊝ z 1056 ⊛ (z 460 ⊛ z 525 ⊹ z 465 ⊛ z 478 ⊛ z 496 ⊝ z 224 ⊛ z 511 ⊝ z 475 ⊛
    z 535 ⊝ z 472 ⊛ z 478 ⊛ z 528)) ⊘ pow (z 494) 2),
(1532, z 227 ⊛ (z 494 ⊛ z 1529 ⊝ z 511 ⊛ z 1056) ⊘ pow (z 494) 2),
(1533, (z 494 ⊛ (z 477 ⊛ z 1530 ⊹ z 467 ⊛ z 496 ⊛ z 1048 ⊹ z 474 ⊛ z 528 ⊛ z 1048) ⊝ z 1056 ⊛ (z
    477 ⊛ z 535 ⊹ z 467 ⊛ z 478 ⊛ z 496 ⊹ z 474 ⊛ z 478 ⊛ z 528)) ⊘ pow (z 494) 2),
(1534, z 1531 ⊛ u4 ⊝ z 1532 ⊛ u6 ⊝ z 1533 ⊛ u7),
(1535, z 1 ⊛ z 1121 ⊝ z 2 ⊛ z 1183),
(1536, z 522 ⊛ z 1124 ⊹ qt 2 ⊛ z 2 ⊛ z 508 ⊛ z 1115 ⊝ z 496 ⊛ z 1535 ⊝ z 515 ⊛ z 1481 ⊝ z 524 ⊛ z
    1117 ⊝ qt 2 ⊛ z 1 ⊛ z 502 ⊛ z 1115),
(1537, z 456 ⊛ z 1121 ⊹ z 462 ⊛ z 1178 ⊝ z 457 ⊛ z 1183 ⊝ z 461 ⊛ z 1145),
(1538, z 502 ⊛ z 1480 ⊹ z 507 ⊛ z 1124 ⊝ z 496 ⊛ z 1537 ⊝ z 498 ⊛ z 1481 ⊝ z 508 ⊛ z 1147 ⊝ z 510
    ⊛ z 1117),
(1539, z 478 ⊛ z 1168 ⊹ z 481 ⊛ z 1180 ⊹ z 489 ⊛ z 1174 ⊹ z 490 ⊛ z 1185 ⊝ z 484 ⊛ z 1485 ⊝ z 485
    ⊛ z 1169),
(1540, (z 1186 ⊛ (z 460 ⊛ z 525 ⊹ z 465 ⊛ z 478 ⊛ z 496 ⊝ z 224 ⊛ z 511 ⊝ z 475 ⊛ z 535 ⊝ z 472 ⊛
    z 478 ⊛ z 528) ⊝ z 494 ⊛ (z 460 ⊛ z 1536 ⊹ z 525 ⊛ z 1065 ⊹ z 465 ⊛ z 478 ⊛ z 1117 ⊹ z 465 ⊛ z
    496 ⊛ z 1180 ⊹ z 478 ⊛ z 496 ⊛ z 1140 ⊝ z 224 ⊛ z 1538 ⊝ z 475 ⊛ z 1539 ⊝ z 535 ⊛ z 1151 ⊝ rr
    ⊛ z 511 ⊛ z 1126 ⊝ z 472 ⊛ z 478 ⊛ z 1177 ⊝ z 472 ⊛ z 528 ⊛ z 1180 ⊝ z 478 ⊛ z 528 ⊛ z 1176))
    ⊘ pow (z 494) 2),
(1541, z 227 ⊛ (z 494 ⊛ z 1538 ⊝ z 511 ⊛ z 1186) ⊘ pow (z 494) 2),
(1542, (z 1186 ⊛ (z 477 ⊛ z 535 ⊹ z 467 ⊛ z 478 ⊛ z 496 ⊹ z 474 ⊛ z 478 ⊛ z 528) ⊝ z 494 ⊛ (z 477
    ⊛ z 1539 ⊹ z 535 ⊛ z 1189 ⊹ z 467 ⊛ z 478 ⊛ z 1117 ⊹ z 467 ⊛ z 496 ⊛ z 1180 ⊹ z 474 ⊛ z 478 ⊛
    z 1177 ⊹ z 474 ⊛ z 528 ⊛ z 1180 ⊹ z 478 ⊛ z 528 ⊛ z 1195 ⊹ z 25 ⊛ z 478 ⊛ z 496 ⊛ (z 1191 ⊹ z
    1194))) ⊘ pow (z 494) 2),
(1543, z 1542 ⊛ u7 ⊝ z 1540 ⊛ u4 ⊝ z 1541 ⊛ u6),
(1544, z 1 ⊛ z 1258 ⊝ z 2 ⊛ z 1309),
(1545, z 522 ⊛ z 1261 ⊹ z 1 ⊛ z 502 ⊛ z 1252 ⊝ z 496 ⊛ z 1544 ⊝ z 515 ⊛ z 1492 ⊝ z 524 ⊛ z 1254 ⊝
    z 2 ⊛ z 508 ⊛ z 1252),
(1546, z 456 ⊛ z 1258 ⊝ z 457 ⊛ z 1309),
(1547, z 507 ⊛ z 1261 ⊹ z 456 ⊛ z 502 ⊛ z 1252 ⊝ z 496 ⊛ z 1546 ⊝ z 498 ⊛ z 1492 ⊝ z 510 ⊛ z 1254
    ⊝ z 457 ⊛ z 508 ⊛ z 1252),
(1548, z 478 ⊛ z 1298 ⊹ z 489 ⊛ z 1303 ⊹ z 490 ⊛ z 1311 ⊝ z 484 ⊛ z 1496 ⊝ z 485 ⊛ z 1299),
(1549, (z 1312 ⊛ (z 460 ⊛ z 525 ⊹ z 465 ⊛ z 478 ⊛ z 496 ⊝ z 224 ⊛ z 511 ⊝ z 475 ⊛ z 535 ⊝ z 472 ⊛
    z 478 ⊛ z 528) ⊝ z 494 ⊛ (z 460 ⊛ z 1545 ⊹ z 3 ⊛ z 525 ⊛ z 1200 ⊹ z 465 ⊛ z 478 ⊛ z 1254 ⊹ z
    478 ⊛ z 496 ⊛ z 1277 ⊝ z 224 ⊛ z 1547 ⊝ z 475 ⊛ z 1548 ⊝ z 535 ⊛ z 1284 ⊝ rr ⊛ z 511 ⊛ z 1263
    ⊝ z 472 ⊛ z 478 ⊛ z 1306 ⊝ z 478 ⊛ z 528 ⊛ z 1305)) ⊘ pow (z 494) 2),
(1550, z 227 ⊛ (z 494 ⊛ z 1547 ⊝ z 511 ⊛ z 1312) ⊘ pow (z 494) 2),
(1551, (z 1312 ⊛ (z 477 ⊛ z 535 ⊹ z 467 ⊛ z 478 ⊛ z 496 ⊹ z 474 ⊛ z 478 ⊛ z 528) ⊝ z 494 ⊛ (z 477
    ⊛ z 1548 ⊹ z 535 ⊛ z 1315 ⊹ z 467 ⊛ z 478 ⊛ z 1254 ⊹ z 474 ⊛ z 478 ⊛ z 1306 ⊹ z 478 ⊛ z 496 ⊛
    z 1322 ⊹ z 478 ⊛ z 528 ⊛ z 1323)) ⊘ pow (z 494) 2),
(1552, z 1551 ⊛ u7 ⊝ z 1549 ⊛ u4 ⊝ z 1550 ⊛ u6),
(1553, z 3 ⊛ z 1331 ⊛ (z 1 ⊛ z 484 ⊝ z 2 ⊛ z 489)),
(1554, (z 494 ⊛ (z 475 ⊛ z 1553 ⊹ z 3 ⊛ z 525 ⊛ z 1327) ⊝ z 1334 ⊛ (z 460 ⊛ z 525 ⊹ z 465 ⊛ z 478
    ⊛ z 496 ⊝ z 224 ⊛ z 511 ⊝ z 475 ⊛ z 535 ⊝ z 472 ⊛ z 478 ⊛ z 528)) ⊘ pow (z 494) 2),
(1555, z 227 ⊛ z 511 ⊛ z 1334 ⊘ pow (z 494) 2),
(1556, (z 477 ⊛ z 494 ⊛ z 1553 ⊹ z 1334 ⊛ (z 477 ⊛ z 535 ⊹ z 467 ⊛ z 478 ⊛ z 496 ⊹ z 474 ⊛ z 478 ⊛
    z 528)) ⊘ pow (z 494) 2),
(1557, neg (z 1554) ⊛ u4 ⊝ z 1555 ⊛ u6 ⊝ z 1556 ⊛ u7),
(1558, z 1 ⊛ z 1392 ⊝ z 2 ⊛ z 1434),
(1559, z 522 ⊛ z 1395 ⊹ z 1 ⊛ z 502 ⊛ z 1387 ⊝ z 496 ⊛ z 1558 ⊝ z 515 ⊛ z 1509 ⊝ z 524 ⊛ z 1389 ⊝
    z 2 ⊛ z 508 ⊛ z 1387),
(1560, z 456 ⊛ z 1392 ⊝ z 457 ⊛ z 1434),
(1561, z 507 ⊛ z 1395 ⊹ z 456 ⊛ z 502 ⊛ z 1387 ⊝ z 496 ⊛ z 1560 ⊝ z 498 ⊛ z 1509 ⊝ z 510 ⊛ z 1389
    ⊝ z 457 ⊛ z 508 ⊛ z 1387)]

/-- _mooreriderlean2012.py:2328-2461 -/
def part16 : List (ℕ × E) := [
(1562, z 478 ⊛ z 1427 ⊹ z 490 ⊛ z 1436 ⊝ z 485 ⊛ z 1428),
(1563, (z 1437 ⊛ (z 460 ⊛ z 525 ⊹ z 465 ⊛ z 478 ⊛ z 496 ⊝ z 224 ⊛ z 511 ⊝ z 475 ⊛ z 535 ⊝ z 472 ⊛
    z 478 ⊛ z 528) ⊝ z 494 ⊛ (z 460 ⊛ z 1559 ⊹ z 465 ⊛ z 478 ⊛ z 1389 ⊹ z 478 ⊛ z 496 ⊛ z 1410 ⊝ z
    224 ⊛ z 1561 ⊝ z 475 ⊛ z 1562 ⊝ z 535 ⊛ z 1413 ⊝ z 472 ⊛ z 478 ⊛ z 1432 ⊝ z 478 ⊛ z 528 ⊛ z
    1431)) ⊘ pow (z 494) 2),
(1564, z 227 ⊛ (z 494 ⊛ z 1561 ⊝ z 511 ⊛ z 1437) ⊘ pow (z 494) 2),
(1565, (z 1437 ⊛ (z 477 ⊛ z 535 ⊹ z 467 ⊛ z 478 ⊛ z 496 ⊹ z 474 ⊛ z 478 ⊛ z 528) ⊝ z 494 ⊛ (z 477
    ⊛ z 1562 ⊹ z 535 ⊛ z 1440 ⊹ z 467 ⊛ z 478 ⊛ z 1389 ⊹ z 474 ⊛ z 478 ⊛ z 1432 ⊹ z 478 ⊛ z 496 ⊛
    z 1448 ⊹ z 478 ⊛ z 528 ⊛ z 1449)) ⊘ pow (z 494) 2),
(1566, z 1565 ⊛ u7 ⊝ z 1563 ⊛ u4 ⊝ z 1564 ⊛ u6),
(1567, z 478 ⊛ (z 494 ⊛ (z 475 ⊛ z 1460 ⊝ z 25 ⊛ z 496 ⊛ z 1456 ⊝ z 29 ⊛ z 528 ⊛ z 1456) ⊝ z 476 ⊛
    z 1461 ⊛ (z 460 ⊛ z 525 ⊹ z 465 ⊛ z 478 ⊛ z 496 ⊝ z 224 ⊛ z 511 ⊝ z 475 ⊛ z 535 ⊝ z 472 ⊛ z
    478 ⊛ z 528)) ⊘ pow (z 494) 2),
(1568, z 227 ⊛ z 476 ⊛ z 478 ⊛ z 511 ⊛ z 1461 ⊘ pow (z 494) 2),
(1569, z 478 ⊛ (z 476 ⊛ z 1461 ⊛ (z 477 ⊛ z 535 ⊹ z 467 ⊛ z 478 ⊛ z 496 ⊹ z 474 ⊛ z 478 ⊛ z 528) ⊹
    z 494 ⊛ (z 477 ⊛ z 1460 ⊝ z 25 ⊛ z 496 ⊛ z 1466 ⊝ z 29 ⊛ z 528 ⊛ z 1466)) ⊘ pow (z 494) 2),
(1570, z 1567 ⊛ u4 ⊹ z 1568 ⊛ u6 ⊹ z 1569 ⊛ u7),
(1571, z 480 ⊛ z 1048 ⊹ z 487 ⊛ z 1055 ⊹ z 489 ⊛ z 1040 ⊝ z 482 ⊛ z 1044 ⊝ z 484 ⊛ z 1047),
(1572, z 475 ⊛ (z 494 ⊛ z 1571 ⊝ z 536 ⊛ z 1056) ⊘ pow (z 494) 2),
(1573, z 477 ⊛ (z 494 ⊛ z 1571 ⊝ z 536 ⊛ z 1056) ⊘ pow (z 494) 2),
(1574, z 1572 ⊛ u4 ⊹ z 1573 ⊛ u7),
(1575, z 478 ⊛ z 1173 ⊹ z 480 ⊛ z 1180 ⊹ z 487 ⊛ z 1185 ⊹ z 489 ⊛ z 1146 ⊝ z 482 ⊛ z 1169 ⊝ z 484
    ⊛ z 1179),
(1576, (z 475 ⊛ z 536 ⊛ z 1186 ⊝ z 475 ⊛ z 494 ⊛ z 1575 ⊝ z 494 ⊛ z 536 ⊛ z 1151) ⊘ pow (z 494) 2),
(1577, (z 477 ⊛ z 536 ⊛ z 1186 ⊝ z 477 ⊛ z 494 ⊛ z 1575 ⊝ z 494 ⊛ z 536 ⊛ z 1189) ⊘ pow (z 494) 2),
(1578, neg (z 1576) ⊛ u4 ⊝ z 1577 ⊛ u7),
(1579, z 478 ⊛ z 1302 ⊹ z 487 ⊛ z 1311 ⊹ z 1 ⊛ z 3 ⊛ z 484 ⊛ z 1280 ⊝ z 482 ⊛ z 1299 ⊝ z 2 ⊛ z 3 ⊛
    z 489 ⊛ z 1280),
(1580, (z 475 ⊛ z 536 ⊛ z 1312 ⊝ z 475 ⊛ z 494 ⊛ z 1579 ⊝ z 494 ⊛ z 536 ⊛ z 1284) ⊘ pow (z 494) 2),
(1581, (z 477 ⊛ z 536 ⊛ z 1312 ⊝ z 477 ⊛ z 494 ⊛ z 1579 ⊝ z 494 ⊛ z 536 ⊛ z 1315) ⊘ pow (z 494) 2),
(1582, neg (z 1580) ⊛ u4 ⊝ z 1581 ⊛ u7),
(1583, z 3 ⊛ z 1329 ⊛ (z 1 ⊛ z 484 ⊝ z 2 ⊛ z 489)),
(1584, z 475 ⊛ (z 494 ⊛ z 1583 ⊹ z 536 ⊛ z 1334) ⊘ pow (z 494) 2),
(1585, z 477 ⊛ (z 494 ⊛ z 1583 ⊹ z 536 ⊛ z 1334) ⊘ pow (z 494) 2),
(1586, z 1584 ⊛ u4 ⊹ z 1585 ⊛ u7),
(1587, z 478 ⊛ z 1429 ⊹ z 487 ⊛ z 1436 ⊝ z 482 ⊛ z 1428),
(1588, (z 475 ⊛ z 536 ⊛ z 1437 ⊝ z 475 ⊛ z 494 ⊛ z 1587 ⊝ z 494 ⊛ z 536 ⊛ z 1413) ⊘ pow (z 494) 2),
(1589, (z 477 ⊛ z 536 ⊛ z 1437 ⊝ z 477 ⊛ z 494 ⊛ z 1587 ⊝ z 494 ⊛ z 536 ⊛ z 1440) ⊘ pow (z 494) 2),
(1590, neg (z 1588) ⊛ u4 ⊝ z 1589 ⊛ u7),
(1591, z 475 ⊛ z 478 ⊛ z 1461 ⊛ (z 494 ⊹ z 476 ⊛ z 536) ⊘ pow (z 494) 2),
(1592, z 477 ⊛ z 478 ⊛ z 1461 ⊛ (z 494 ⊹ z 476 ⊛ z 536) ⊘ pow (z 494) 2),
(1593, neg (z 1591) ⊛ u4 ⊝ z 1592 ⊛ u7),
(1594, z 499 ⊛ z 1526 ⊹ z 508 ⊛ z 1037 ⊹ z 476 ⊛ z 513 ⊛ z 1054 ⊝ z 502 ⊛ z 1476 ⊝ z 476 ⊛ z 520 ⊛
    z 1038),
(1595, z 529 ⊛ z 1048 ⊹ z 531 ⊛ z 1040 ⊹ z 476 ⊛ z 487 ⊛ z 1053 ⊝ z 530 ⊛ z 1047 ⊝ z 476 ⊛ z 482 ⊛
    z 1036),
(1596, z 499 ⊛ z 1528 ⊹ z 508 ⊛ z 1042 ⊹ z 476 ⊛ z 495 ⊛ z 1054 ⊝ z 502 ⊛ z 1470 ⊝ z 476 ⊛ z 505 ⊛
    z 1038),
(1597, z 499 ⊛ z 1048 ⊹ z 508 ⊛ z 1040 ⊹ z 476 ⊛ z 487 ⊛ z 1054 ⊝ z 502 ⊛ z 1047 ⊝ z 476 ⊛ z 482 ⊛
    z 1038),
(1598, z 473 ⊛ z 1036 ⊝ z 466 ⊛ z 1038),
(1599, z 471 ⊛ z 1053 ⊝ z 464 ⊛ z 1054),
(1600, z 461 ⊛ z 1038 ⊹ z 469 ⊛ z 1053 ⊝ z 462 ⊛ z 1054 ⊝ z 468 ⊛ z 1036),
(1601, z 471 ⊛ z 1036 ⊝ z 464 ⊛ z 1038),
(1602, z 473 ⊛ z 1053 ⊝ z 466 ⊛ z 1054),
(1603, z 479 ⊛ z 1048 ⊹ z 485 ⊛ z 1598 ⊹ z 486 ⊛ z 1473 ⊹ z 487 ⊛ z 1599 ⊹ z 488 ⊛ z 1040 ⊹ z 492
    ⊛ z 1600 ⊝ z 482 ⊛ z 1601 ⊝ z 483 ⊛ z 1047 ⊝ z 490 ⊛ z 1602 ⊝ z 491 ⊛ z 1045),
(1604, (z 494 ⊛ (z 460 ⊛ z 1594 ⊹ z 472 ⊛ z 1595 ⊝ z 224 ⊛ z 1596 ⊝ z 465 ⊛ z 1597 ⊝ z 475 ⊛ z
    1603) ⊝ z 1056 ⊛ (z 460 ⊛ z 526 ⊹ z 472 ⊛ z 532 ⊝ z 224 ⊛ z 512 ⊝ z 465 ⊛ z 527 ⊝ z 475 ⊛ z
    537)) ⊘ pow (z 494) 2),
(1605, (z 494 ⊛ (z 467 ⊛ z 1597 ⊹ z 474 ⊛ z 1595 ⊝ z 477 ⊛ z 1603) ⊝ z 1056 ⊛ (z 467 ⊛ z 527 ⊹ z
    474 ⊛ z 532 ⊝ z 477 ⊛ z 537)) ⊘ pow (z 494) 2),
(1606, z 227 ⊛ (z 494 ⊛ z 1596 ⊝ z 512 ⊛ z 1056) ⊘ pow (z 494) 2),
(1607, z 1604 ⊛ u4 ⊹ z 1605 ⊛ u7 ⊝ z 1606 ⊛ u6),
(1608, z 499 ⊛ z 1535 ⊹ z 508 ⊛ z 1122 ⊹ z 513 ⊛ z 1481 ⊹ z 524 ⊛ z 1114 ⊝ z 502 ⊛ z 1488 ⊝ z 520
    ⊛ z 1124),
(1609, z 466 ⊛ z 1113 ⊹ z 476 ⊛ z 1118),
(1610, z 461 ⊛ z 1113 ⊹ z 476 ⊛ z 1183),
(1611, z 462 ⊛ z 1113 ⊹ z 476 ⊛ z 1121),
(1612, z 478 ⊛ z 1609 ⊹ z 487 ⊛ z 1610 ⊹ z 529 ⊛ z 1180 ⊹ z 531 ⊛ z 1146 ⊝ z 482 ⊛ z 1611 ⊝ z 530
    ⊛ z 1179),
(1613, z 495 ⊛ z 1481 ⊹ z 499 ⊛ z 1537 ⊹ z 508 ⊛ z 1149 ⊹ z 510 ⊛ z 1114 ⊝ z 502 ⊛ z 1482 ⊝ z 505
    ⊛ z 1124),
(1614, z 478 ⊛ z 1114 ⊹ z 487 ⊛ z 1481 ⊹ z 499 ⊛ z 1180 ⊹ z 508 ⊛ z 1146 ⊝ z 482 ⊛ z 1124 ⊝ z 502
    ⊛ z 1179),
(1615, z 466 ⊛ z 1167 ⊹ z 471 ⊛ z 1118 ⊝ z 464 ⊛ z 1084 ⊝ z 473 ⊛ z 1166),
(1616, z 462 ⊛ z 1084 ⊹ z 473 ⊛ z 1121 ⊝ z 466 ⊛ z 1123 ⊝ z 469 ⊛ z 1118),
(1617, z 461 ⊛ z 1167 ⊹ z 471 ⊛ z 1183 ⊝ z 464 ⊛ z 1184 ⊝ z 468 ⊛ z 1166),
(1618, z 461 ⊛ z 1123 ⊹ z 469 ⊛ z 1183 ⊝ z 462 ⊛ z 1184 ⊝ z 468 ⊛ z 1121),
(1619, z 462 ⊛ z 1167 ⊹ z 471 ⊛ z 1121 ⊝ z 464 ⊛ z 1123 ⊝ z 469 ⊛ z 1166),
(1620, z 461 ⊛ z 1084 ⊹ z 473 ⊛ z 1183 ⊝ z 466 ⊛ z 1184 ⊝ z 468 ⊛ z 1118),
(1621, z 478 ⊛ z 1615 ⊹ z 479 ⊛ z 1180 ⊹ z 485 ⊛ z 1616 ⊹ z 486 ⊛ z 1485 ⊹ z 487 ⊛ z 1617 ⊹ z 488
    ⊛ z 1146 ⊹ z 492 ⊛ z 1618 ⊹ z 493 ⊛ z 1172 ⊝ z 482 ⊛ z 1619 ⊝ z 483 ⊛ z 1179 ⊝ z 490 ⊛ z 1620
    ⊝ z 491 ⊛ z 1174),
(1622, (z 1186 ⊛ (z 460 ⊛ z 526 ⊹ z 472 ⊛ z 532 ⊝ z 224 ⊛ z 512 ⊝ z 465 ⊛ z 527 ⊝ z 475 ⊛ z 537) ⊝
    z 494 ⊛ (z 460 ⊛ z 1608 ⊹ z 472 ⊛ z 1612 ⊹ z 526 ⊛ z 1065 ⊹ z 532 ⊛ z 1176 ⊝ z 224 ⊛ z 1613 ⊝
    z 465 ⊛ z 1614 ⊝ z 475 ⊛ z 1621 ⊝ z 527 ⊛ z 1140 ⊝ z 537 ⊛ z 1151 ⊝ rr ⊛ z 512 ⊛ z 1126)) ⊘
    pow (z 494) 2),
(1623, (z 1186 ⊛ (z 467 ⊛ z 527 ⊹ z 474 ⊛ z 532 ⊝ z 477 ⊛ z 537) ⊹ z 494 ⊛ (z 477 ⊛ z 1621 ⊹ z 537
    ⊛ z 1189 ⊝ z 467 ⊛ z 1614 ⊝ z 474 ⊛ z 1612 ⊝ z 532 ⊛ z 1195 ⊝ z 25 ⊛ z 527 ⊛ (z 1191 ⊹ z
    1194))) ⊘ pow (z 494) 2),
(1624, z 227 ⊛ (z 494 ⊛ z 1613 ⊝ z 512 ⊛ z 1186) ⊘ pow (z 494) 2),
(1625, neg (z 1622) ⊛ u4 ⊝ z 1623 ⊛ u7 ⊝ z 1624 ⊛ u6),
(1626, z 499 ⊛ z 1544 ⊹ z 508 ⊛ z 1259 ⊹ z 513 ⊛ z 1492 ⊹ z 524 ⊛ z 1251 ⊝ z 502 ⊛ z 1499 ⊝ z 520
    ⊛ z 1261),
(1627, z 466 ⊛ z 1250 ⊹ z 476 ⊛ z 1255),
(1628, z 461 ⊛ z 1250 ⊹ z 476 ⊛ z 1309),
(1629, z 462 ⊛ z 1250 ⊹ z 476 ⊛ z 1258),
(1630, z 478 ⊛ z 1627 ⊹ z 487 ⊛ z 1628 ⊹ z 1 ⊛ z 3 ⊛ z 530 ⊛ z 1280 ⊝ z 482 ⊛ z 1629 ⊝ z 2 ⊛ z 3 ⊛
    z 531 ⊛ z 1280),
(1631, z 495 ⊛ z 1492 ⊹ z 499 ⊛ z 1546 ⊹ z 508 ⊛ z 1282 ⊹ z 510 ⊛ z 1251 ⊝ z 502 ⊛ z 1493 ⊝ z 505
    ⊛ z 1261),
(1632, z 478 ⊛ z 1251 ⊹ z 487 ⊛ z 1492 ⊹ z 1 ⊛ z 3 ⊛ z 502 ⊛ z 1280 ⊝ z 482 ⊛ z 1261 ⊝ z 2 ⊛ z 3 ⊛
    z 508 ⊛ z 1280),
(1633, z 466 ⊛ z 1297 ⊹ z 471 ⊛ z 1255 ⊝ z 464 ⊛ z 1218 ⊝ z 473 ⊛ z 1296),
(1634, z 462 ⊛ z 1218 ⊹ z 473 ⊛ z 1258 ⊝ z 466 ⊛ z 1260 ⊝ z 469 ⊛ z 1255),
(1635, z 461 ⊛ z 1297 ⊹ z 471 ⊛ z 1309 ⊝ z 464 ⊛ z 1310 ⊝ z 468 ⊛ z 1296),
(1636, z 461 ⊛ z 1260 ⊹ z 469 ⊛ z 1309 ⊝ z 462 ⊛ z 1310 ⊝ z 468 ⊛ z 1258),
(1637, z 462 ⊛ z 1297 ⊹ z 471 ⊛ z 1258 ⊝ z 464 ⊛ z 1260 ⊝ z 469 ⊛ z 1296),
(1638, z 461 ⊛ z 1218 ⊹ z 473 ⊛ z 1309 ⊝ z 466 ⊛ z 1310 ⊝ z 468 ⊛ z 1255),
(1639, z 478 ⊛ z 1633 ⊹ z 485 ⊛ z 1634 ⊹ z 486 ⊛ z 1496 ⊹ z 487 ⊛ z 1635 ⊹ z 492 ⊛ z 1636 ⊹ z 493
    ⊛ z 1301 ⊹ z 1 ⊛ z 3 ⊛ z 483 ⊛ z 1280 ⊝ z 482 ⊛ z 1637 ⊝ z 490 ⊛ z 1638 ⊝ z 491 ⊛ z 1303 ⊝ z 2
    ⊛ z 3 ⊛ z 488 ⊛ z 1280),
(1640, (z 1312 ⊛ (z 460 ⊛ z 526 ⊹ z 472 ⊛ z 532 ⊝ z 224 ⊛ z 512 ⊝ z 465 ⊛ z 527 ⊝ z 475 ⊛ z 537) ⊹
    z 494 ⊛ (z 224 ⊛ z 1631 ⊹ z 465 ⊛ z 1632 ⊹ z 475 ⊛ z 1639 ⊹ z 527 ⊛ z 1277 ⊹ z 537 ⊛ z 1284 ⊹
    rr ⊛ z 512 ⊛ z 1263 ⊝ z 460 ⊛ z 1626 ⊝ z 472 ⊛ z 1630 ⊝ z 532 ⊛ z 1305 ⊝ z 3 ⊛ z 526 ⊛ z
    1200)) ⊘ pow (z 494) 2),
(1641, (z 1312 ⊛ (z 467 ⊛ z 527 ⊹ z 474 ⊛ z 532 ⊝ z 477 ⊛ z 537) ⊝ z 494 ⊛ (z 467 ⊛ z 1632 ⊹ z 474
    ⊛ z 1630 ⊹ z 527 ⊛ z 1322 ⊹ z 532 ⊛ z 1323 ⊝ z 477 ⊛ z 1639 ⊝ z 537 ⊛ z 1315)) ⊘ pow (z 494)
    2),
(1642, z 227 ⊛ (z 494 ⊛ z 1631 ⊝ z 512 ⊛ z 1312) ⊘ pow (z 494) 2),
(1643, neg (z 1640) ⊛ u4 ⊝ z 1641 ⊛ u7 ⊝ z 1642 ⊛ u6),
(1644, z 3 ⊛ z 1329 ⊛ (z 1 ⊛ z 530 ⊝ z 2 ⊛ z 531)),
(1645, z 3 ⊛ z 1329 ⊛ (z 461 ⊛ z 502 ⊝ z 462 ⊛ z 508)),
(1646, z 3 ⊛ z 1329 ⊛ (z 1 ⊛ z 502 ⊝ z 2 ⊛ z 508))]

/-- _mooreriderlean2012.py:2462-2576 -/
def part17 : List (ℕ × E) := [
(1647, z 493 ⊛ z 1332 ⊹ z 1 ⊛ z 3 ⊛ z 483 ⊛ z 1329 ⊹ z 2 ⊛ z 3 ⊛ z 491 ⊛ z 1331 ⊝ z 1 ⊛ z 3 ⊛ z
    486 ⊛ z 1331 ⊝ z 2 ⊛ z 3 ⊛ z 488 ⊛ z 1329),
(1648, (z 1334 ⊛ (z 460 ⊛ z 526 ⊹ z 472 ⊛ z 532 ⊝ z 224 ⊛ z 512 ⊝ z 465 ⊛ z 527 ⊝ z 475 ⊛ z 537) ⊹
    z 494 ⊛ (z 224 ⊛ z 1645 ⊹ z 472 ⊛ z 1644 ⊝ z 465 ⊛ z 1646 ⊝ z 475 ⊛ z 1647 ⊝ z 3 ⊛ z 526 ⊛ z
    1327)) ⊘ pow (z 494) 2),
(1649, (z 494 ⊛ (z 467 ⊛ z 1646 ⊹ z 474 ⊛ z 1644 ⊝ z 477 ⊛ z 1647) ⊹ z 1334 ⊛ (z 467 ⊛ z 527 ⊹ z
    474 ⊛ z 532 ⊝ z 477 ⊛ z 537)) ⊘ pow (z 494) 2),
(1650, z 227 ⊛ (z 494 ⊛ z 1645 ⊝ z 512 ⊛ z 1334) ⊘ pow (z 494) 2),
(1651, z 1648 ⊛ u4 ⊹ z 1649 ⊛ u7 ⊹ z 1650 ⊛ u6),
(1652, z 499 ⊛ z 1558 ⊹ z 508 ⊛ z 1393 ⊹ z 513 ⊛ z 1509 ⊹ z 524 ⊛ z 1386 ⊝ z 502 ⊛ z 1515 ⊝ z 520
    ⊛ z 1395),
(1653, z 466 ⊛ z 1385 ⊹ z 476 ⊛ z 1390),
(1654, z 461 ⊛ z 1385 ⊹ z 476 ⊛ z 1434),
(1655, z 462 ⊛ z 1385 ⊹ z 476 ⊛ z 1392),
(1656, z 478 ⊛ z 1653 ⊹ z 487 ⊛ z 1654 ⊝ z 482 ⊛ z 1655),
(1657, z 495 ⊛ z 1509 ⊹ z 499 ⊛ z 1560 ⊹ z 508 ⊛ z 1411 ⊹ z 510 ⊛ z 1386 ⊝ z 502 ⊛ z 1510 ⊝ z 505
    ⊛ z 1395),
(1658, z 478 ⊛ z 1386 ⊹ z 487 ⊛ z 1509 ⊝ z 482 ⊛ z 1395),
(1659, z 466 ⊛ z 1426 ⊹ z 471 ⊛ z 1390 ⊝ z 464 ⊛ z 1354 ⊝ z 473 ⊛ z 1425),
(1660, z 462 ⊛ z 1354 ⊹ z 473 ⊛ z 1392 ⊝ z 466 ⊛ z 1394 ⊝ z 469 ⊛ z 1390),
(1661, z 461 ⊛ z 1426 ⊹ z 471 ⊛ z 1434 ⊝ z 464 ⊛ z 1435 ⊝ z 468 ⊛ z 1425),
(1662, z 461 ⊛ z 1394 ⊹ z 469 ⊛ z 1434 ⊝ z 462 ⊛ z 1435 ⊝ z 468 ⊛ z 1392),
(1663, z 462 ⊛ z 1426 ⊹ z 471 ⊛ z 1392 ⊝ z 464 ⊛ z 1394 ⊝ z 469 ⊛ z 1425),
(1664, z 461 ⊛ z 1354 ⊹ z 473 ⊛ z 1434 ⊝ z 466 ⊛ z 1435 ⊝ z 468 ⊛ z 1390),
(1665, z 478 ⊛ z 1659 ⊹ z 485 ⊛ z 1660 ⊹ z 487 ⊛ z 1661 ⊹ z 492 ⊛ z 1662 ⊝ z 482 ⊛ z 1663 ⊝ z 490
    ⊛ z 1664),
(1666, (z 1437 ⊛ (z 460 ⊛ z 526 ⊹ z 472 ⊛ z 532 ⊝ z 224 ⊛ z 512 ⊝ z 465 ⊛ z 527 ⊝ z 475 ⊛ z 537) ⊝
    z 494 ⊛ (z 460 ⊛ z 1652 ⊹ z 472 ⊛ z 1656 ⊹ z 532 ⊛ z 1431 ⊝ z 224 ⊛ z 1657 ⊝ z 465 ⊛ z 1658 ⊝
    z 475 ⊛ z 1665 ⊝ z 527 ⊛ z 1410 ⊝ z 537 ⊛ z 1413)) ⊘ pow (z 494) 2),
(1667, (z 1437 ⊛ (z 467 ⊛ z 527 ⊹ z 474 ⊛ z 532 ⊝ z 477 ⊛ z 537) ⊝ z 494 ⊛ (z 467 ⊛ z 1658 ⊹ z 474
    ⊛ z 1656 ⊹ z 527 ⊛ z 1448 ⊹ z 532 ⊛ z 1449 ⊝ z 477 ⊛ z 1665 ⊝ z 537 ⊛ z 1440)) ⊘ pow (z 494)
    2),
(1668, z 227 ⊛ (z 494 ⊛ z 1657 ⊝ z 512 ⊛ z 1437) ⊘ pow (z 494) 2),
(1669, neg (z 1666) ⊛ u4 ⊝ z 1667 ⊛ u7 ⊝ z 1668 ⊛ u6),
(1670, z 1453 ⊛ (z 2 ⊛ z 25 ⊛ z 508 ⊝ z 1 ⊛ z 25 ⊛ z 502 ⊝ z 29 ⊛ z 476 ⊛ z 524)),
(1671, z 25 ⊛ z 476 ⊛ z 478 ⊛ z 1453),
(1672, z 1453 ⊛ (z 25 ⊛ z 457 ⊛ z 508 ⊝ z 25 ⊛ z 456 ⊛ z 502 ⊝ z 29 ⊛ z 476 ⊛ z 510)),
(1673, z 29 ⊛ z 476 ⊛ z 478 ⊛ z 1453),
(1674, z 25 ⊛ z 473 ⊛ z 1459 ⊹ z 29 ⊛ z 466 ⊛ z 1459 ⊝ z 25 ⊛ z 471 ⊛ z 1453 ⊝ z 29 ⊛ z 464 ⊛ z
    1453),
(1675, z 1453 ⊛ (z 25 ⊛ z 469 ⊹ z 29 ⊛ z 462)),
(1676, z 1459 ⊛ (z 25 ⊛ z 468 ⊹ z 29 ⊛ z 461)),
(1677, z 1459 ⊛ (z 25 ⊛ z 469 ⊹ z 29 ⊛ z 462)),
(1678, z 1453 ⊛ (z 25 ⊛ z 468 ⊹ z 29 ⊛ z 461)),
(1679, z 478 ⊛ z 1674 ⊹ z 485 ⊛ z 1675 ⊹ z 487 ⊛ z 1676 ⊝ z 482 ⊛ z 1677 ⊝ z 490 ⊛ z 1678),
(1680, (z 476 ⊛ z 478 ⊛ z 1461 ⊛ (z 460 ⊛ z 526 ⊹ z 472 ⊛ z 532 ⊝ z 224 ⊛ z 512 ⊝ z 465 ⊛ z 527 ⊝
    z 475 ⊛ z 537) ⊹ z 494 ⊛ (z 460 ⊛ z 1670 ⊹ z 465 ⊛ z 1673 ⊹ z 472 ⊛ z 1671 ⊹ z 475 ⊛ z 1679 ⊝
    z 224 ⊛ z 1672 ⊝ z 25 ⊛ z 527 ⊛ z 1456 ⊝ z 29 ⊛ z 532 ⊛ z 1456)) ⊘ pow (z 494) 2),
(1681, (z 476 ⊛ z 478 ⊛ z 1461 ⊛ (z 467 ⊛ z 527 ⊹ z 474 ⊛ z 532 ⊝ z 477 ⊛ z 537) ⊹ z 494 ⊛ (z 474
    ⊛ z 1671 ⊹ z 477 ⊛ z 1679 ⊝ z 467 ⊛ z 1673 ⊝ z 25 ⊛ z 527 ⊛ z 1466 ⊝ z 29 ⊛ z 532 ⊛ z 1466)) ⊘
    pow (z 494) 2),
(1682, z 227 ⊛ (z 494 ⊛ z 1672 ⊹ z 476 ⊛ z 478 ⊛ z 512 ⊛ z 1461) ⊘ pow (z 494) 2),
(1683, z 1682 ⊛ u6 ⊝ z 1680 ⊛ u4 ⊝ z 1681 ⊛ u7),
(1684, z 19 ⊛ z 122 ⊝ z 16 ⊛ z 120 ⊝ z 2 ⊛ z 3 ⊛ z 17),
(1685, z 20 ⊛ z 122 ⊹ z 2 ⊛ z 3 ⊛ z 15 ⊝ z 18 ⊛ z 120),
(1686, mg ⊛ (z 182 ⊛ z 205 ⊝ z 200 ⊛ z 1684 ⊝ z 201 ⊛ z 1685)),
(1687, z 13 ⊛ z 1050 ⊹ z 14 ⊛ z 1049),
(1688, z 19 ⊛ z 1049 ⊝ z 16 ⊛ z 1050 ⊝ z 1 ⊛ z 3 ⊛ z 17),
(1689, z 20 ⊛ z 1049 ⊹ z 1 ⊛ z 3 ⊛ z 15 ⊝ z 18 ⊛ z 1050),
(1690, mg ⊛ (z 200 ⊛ z 1688 ⊹ z 201 ⊛ z 1689 ⊝ z 205 ⊛ z 1687)),
(1691, z 540 ⊛ z 1690 ⊹ z 543 ⊛ z 1686 ⊹ z 903 ⊛ z 1573 ⊹ z 907 ⊛ z 1475 ⊝ z 902 ⊛ z 1533 ⊝ z 906
    ⊛ z 1059),
(1692, n 2 ⊛ mg ⊛ (z 182 ⊛ z 183 ⊹ z 188 ⊛ z 1684 ⊹ z 193 ⊛ z 1685) ⊹ n 2 ⊛ mc ⊛ (z 120 ⊛ z 123 ⊹
    z 122 ⊛ z 125 ⊝ z 2 ⊛ z 3 ⊛ z 124) ⊹ n 2 ⊛ me ⊛ (z 120 ⊛ z 123 ⊹ z 122 ⊛ z 125 ⊝ z 2 ⊛ z 3 ⊛ z
    124) ⊹ n 2 ⊛ mf ⊛ (z 120 ⊛ z 123 ⊹ z 122 ⊛ z 125 ⊝ z 2 ⊛ z 3 ⊛ z 124)),
(1693, mg ⊛ (pow (z 182) 2 ⊹ z 183 ⊛ z 1687 ⊹ z 187 ⊛ z 1684 ⊹ z 188 ⊛ z 1688 ⊹ z 192 ⊛ z 1685 ⊹ z
    193 ⊛ z 1689) ⊝ mc ⊛ (z 1 ⊛ z 3 ⊛ z 124 ⊝ pow (z 120) 2 ⊝ pow (z 122) 2 ⊝ z 123 ⊛ z 1050 ⊝ z
    125 ⊛ z 1049 ⊝ z 2 ⊛ z 3 ⊛ z 121) ⊝ me ⊛ (z 1 ⊛ z 3 ⊛ z 124 ⊝ pow (z 120) 2 ⊝ pow (z 122) 2 ⊝
    z 123 ⊛ z 1050 ⊝ z 125 ⊛ z 1049 ⊝ z 2 ⊛ z 3 ⊛ z 121) ⊝ mf ⊛ (z 1 ⊛ z 3 ⊛ z 124 ⊝ pow (z 120) 2
    ⊝ pow (z 122) 2 ⊝ z 123 ⊛ z 1050 ⊝ z 125 ⊛ z 1049 ⊝ z 2 ⊛ z 3 ⊛ z 121)),
(1694, mg ⊛ (z 182 ⊛ z 211 ⊹ z 214 ⊛ z 1684 ⊹ z 217 ⊛ z 1685) ⊹ mc ⊛ (z 120 ⊛ z 137 ⊹ z 122 ⊛ z
    138 ⊝ z 2 ⊛ z 3 ⊛ z 130) ⊹ me ⊛ (z 122 ⊛ z 146 ⊹ z 9 ⊛ z 120 ⊛ z 166 ⊝ z 120 ⊛ z 126 ⊝ z 122 ⊛
    z 169 ⊝ z 2 ⊛ z 3 ⊛ z 145 ⊝ z 10 ⊛ z 120 ⊛ z 159 ⊝ z 2 ⊛ z 3 ⊛ z 9 ⊛ z 159 ⊝ z 2 ⊛ z 3 ⊛ z 10
    ⊛ z 166) ⊹ mf ⊛ (z 122 ⊛ z 146 ⊹ z 9 ⊛ z 120 ⊛ z 154 ⊝ z 120 ⊛ z 126 ⊝ z 122 ⊛ z 157 ⊝ z 2 ⊛ z
    3 ⊛ z 145 ⊝ z 10 ⊛ z 120 ⊛ z 148 ⊝ z 2 ⊛ z 3 ⊛ z 9 ⊛ z 148 ⊝ z 2 ⊛ z 3 ⊛ z 10 ⊛ z 154) ⊝ md ⊛
    z 1 ⊛ z 118),
(1695, z 542 ⊛ z 1692 ⊹ z 914 ⊛ z 1472 ⊝ z 539 ⊛ z 1693 ⊝ z 545 ⊛ z 1694 ⊝ z 910 ⊛ z 1058 ⊝ z 916
    ⊛ z 1532),
(1696, n 2 ⊛ mg ⊛ (z 182 ⊛ z 1687 ⊹ z 187 ⊛ z 1688 ⊹ z 192 ⊛ z 1689) ⊹ n 2 ⊛ mc ⊛ (z 120 ⊛ z 1050
    ⊹ z 122 ⊛ z 1049 ⊹ z 1 ⊛ z 3 ⊛ z 121) ⊹ n 2 ⊛ me ⊛ (z 120 ⊛ z 1050 ⊹ z 122 ⊛ z 1049 ⊹ z 1 ⊛ z
    3 ⊛ z 121) ⊹ n 2 ⊛ mf ⊛ (z 120 ⊛ z 1050 ⊹ z 122 ⊛ z 1049 ⊹ z 1 ⊛ z 3 ⊛ z 121)),
(1697, md ⊛ z 2 ⊛ z 118 ⊹ mg ⊛ (z 211 ⊛ z 1687 ⊹ z 214 ⊛ z 1688 ⊹ z 217 ⊛ z 1689) ⊹ mc ⊛ (z 137 ⊛
    z 1050 ⊹ z 138 ⊛ z 1049 ⊝ z 1 ⊛ z 3 ⊛ z 130) ⊹ me ⊛ (z 146 ⊛ z 1049 ⊹ z 9 ⊛ z 166 ⊛ z 1050 ⊝ z
    126 ⊛ z 1050 ⊝ z 169 ⊛ z 1049 ⊝ z 1 ⊛ z 3 ⊛ z 145 ⊝ z 10 ⊛ z 159 ⊛ z 1050 ⊝ z 1 ⊛ z 3 ⊛ z 9 ⊛
    z 159 ⊝ z 1 ⊛ z 3 ⊛ z 10 ⊛ z 166) ⊹ mf ⊛ (z 146 ⊛ z 1049 ⊹ z 9 ⊛ z 154 ⊛ z 1050 ⊝ z 126 ⊛ z
    1050 ⊝ z 157 ⊛ z 1049 ⊝ z 1 ⊛ z 3 ⊛ z 145 ⊝ z 10 ⊛ z 148 ⊛ z 1050 ⊝ z 1 ⊛ z 3 ⊛ z 9 ⊛ z 148 ⊝
    z 1 ⊛ z 3 ⊛ z 10 ⊛ z 154)),
(1698, z 542 ⊛ z 1693 ⊹ z 910 ⊛ z 1472 ⊝ z 539 ⊛ z 1696 ⊝ z 545 ⊛ z 1697 ⊝ z 909 ⊛ z 1058 ⊝ z 912
    ⊛ z 1532),
(1699, z 542 ⊛ z 1694 ⊹ z 916 ⊛ z 1472 ⊝ z 539 ⊛ z 1697 ⊝ z 912 ⊛ z 1058 ⊝ z 919 ⊛ z 1532 ⊝ z 936
    ⊛ z 1606),
(1700, neg (z 923) ⊛ z 1532 ⊝ z 937 ⊛ z 1606),
(1701, z 542 ⊛ z 1695 ⊹ z 958 ⊛ z 1472 ⊝ z 539 ⊛ z 1698 ⊝ z 545 ⊛ z 1699 ⊝ z 550 ⊛ z 1700 ⊝ z 921
    ⊛ z 1532 ⊝ z 955 ⊛ z 1532 ⊝ z 957 ⊛ z 1058 ⊝ z 961 ⊛ z 1606),
(1702, z 540 ⊛ z 1690 ⊹ z 543 ⊛ z 1686 ⊹ z 907 ⊛ z 1475 ⊹ z 932 ⊛ z 1573 ⊝ z 906 ⊛ z 1059 ⊝ z 924
    ⊛ z 1533),
(1703, z 539 ⊛ z 1690 ⊹ z 542 ⊛ z 1686 ⊹ z 907 ⊛ z 1472 ⊝ z 906 ⊛ z 1058 ⊝ z 924 ⊛ z 1532),
(1704, z 929 ⊛ z 1573 ⊝ z 921 ⊛ z 1533),
(1705, (me ⊛ z 161 ⊹ mf ⊛ z 150) ⊛ (z 10 ⊛ z 120 ⊹ z 2 ⊛ z 3 ⊛ z 9)),
(1706, mg ⊛ (z 182 ⊛ z 210 ⊹ z 213 ⊛ z 1684 ⊹ z 216 ⊛ z 1685) ⊹ mc ⊛ (z 120 ⊛ z 135 ⊝ z 122 ⊛ z
    132 ⊝ z 2 ⊛ z 3 ⊛ z 128) ⊹ me ⊛ (z 9 ⊛ z 120 ⊛ z 164 ⊝ z 122 ⊛ z 141 ⊝ z 122 ⊛ z 167 ⊝ z 2 ⊛ z
    3 ⊛ z 143 ⊝ z 10 ⊛ z 120 ⊛ z 160 ⊝ z 2 ⊛ z 3 ⊛ z 9 ⊛ z 160 ⊝ z 2 ⊛ z 3 ⊛ z 10 ⊛ z 164) ⊹ mf ⊛
    (z 9 ⊛ z 120 ⊛ z 152 ⊝ z 122 ⊛ z 141 ⊝ z 122 ⊛ z 155 ⊝ z 2 ⊛ z 3 ⊛ z 143 ⊝ z 10 ⊛ z 120 ⊛ z
    149 ⊝ z 2 ⊛ z 3 ⊛ z 9 ⊛ z 149 ⊝ z 2 ⊛ z 3 ⊛ z 10 ⊛ z 152)),
(1707, z 543 ⊛ z 1692 ⊹ z 548 ⊛ z 1706 ⊹ z 914 ⊛ z 1475 ⊹ z 915 ⊛ z 1573 ⊝ z 1705 ⊝ z 540 ⊛ z 1693
    ⊝ z 546 ⊛ z 1694 ⊝ z 910 ⊛ z 1059 ⊝ z 916 ⊛ z 1533)]

/-- _mooreriderlean2012.py:2577-2729 -/
def part18 : List (ℕ × E) := [
(1708, mg ⊛ (z 210 ⊛ z 1687 ⊹ z 213 ⊛ z 1688 ⊹ z 216 ⊛ z 1689) ⊹ mc ⊛ (z 135 ⊛ z 1050 ⊝ z 132 ⊛ z
    1049 ⊝ z 1 ⊛ z 3 ⊛ z 128) ⊹ me ⊛ (z 9 ⊛ z 164 ⊛ z 1050 ⊝ z 141 ⊛ z 1049 ⊝ z 167 ⊛ z 1049 ⊝ z 1
    ⊛ z 3 ⊛ z 143 ⊝ z 10 ⊛ z 160 ⊛ z 1050 ⊝ z 1 ⊛ z 3 ⊛ z 9 ⊛ z 160 ⊝ z 1 ⊛ z 3 ⊛ z 10 ⊛ z 164) ⊹
    mf ⊛ (z 9 ⊛ z 152 ⊛ z 1050 ⊝ z 141 ⊛ z 1049 ⊝ z 155 ⊛ z 1049 ⊝ z 1 ⊛ z 3 ⊛ z 143 ⊝ z 10 ⊛ z
    149 ⊛ z 1050 ⊝ z 1 ⊛ z 3 ⊛ z 9 ⊛ z 149 ⊝ z 1 ⊛ z 3 ⊛ z 10 ⊛ z 152)),
(1709, (me ⊛ z 161 ⊹ mf ⊛ z 150) ⊛ (z 10 ⊛ z 1050 ⊹ z 1 ⊛ z 3 ⊛ z 9)),
(1710, z 543 ⊛ z 1693 ⊹ z 548 ⊛ z 1708 ⊹ z 910 ⊛ z 1475 ⊹ z 911 ⊛ z 1573 ⊝ z 1709 ⊝ z 540 ⊛ z 1696
    ⊝ z 546 ⊛ z 1697 ⊝ z 909 ⊛ z 1059 ⊝ z 912 ⊛ z 1533),
(1711, z 543 ⊛ z 1694 ⊹ z 916 ⊛ z 1475 ⊹ z 927 ⊛ z 1573 ⊹ z 936 ⊛ z 1605 ⊝ z 540 ⊛ z 1697 ⊝ z 912
    ⊛ z 1059 ⊝ z 919 ⊛ z 1533),
(1712, z 931 ⊛ z 1573 ⊹ z 937 ⊛ z 1605 ⊝ z 923 ⊛ z 1533),
(1713, z 1704 ⊹ z 542 ⊛ z 1707 ⊹ z 972 ⊛ z 1472 ⊝ z 539 ⊛ z 1710 ⊝ z 545 ⊛ z 1711 ⊝ z 550 ⊛ z 1712
    ⊝ z 970 ⊛ z 1532 ⊝ z 971 ⊛ z 1058 ⊝ z 975 ⊛ z 1606),
(1714, z 964 ⊛ z 1702 ⊹ z 973 ⊛ z 1701 ⊝ z 960 ⊛ z 1713 ⊝ z 978 ⊛ z 1703),
(1715, z 540 ⊛ z 1709 ⊹ z 899 ⊛ z 1059 ⊹ z 900 ⊛ z 1475 ⊹ z 930 ⊛ z 1573 ⊝ z 543 ⊛ z 1705 ⊝ z 922
    ⊛ z 1533),
(1716, z 543 ⊛ z 1706 ⊹ z 915 ⊛ z 1475 ⊹ z 928 ⊛ z 1573 ⊹ z 934 ⊛ z 1605 ⊝ z 540 ⊛ z 1708 ⊝ z 911
    ⊛ z 1059 ⊝ z 920 ⊛ z 1533),
(1717, z 1715 ⊹ z 543 ⊛ z 1707 ⊹ z 548 ⊛ z 1716 ⊹ z 551 ⊛ z 1712 ⊹ z 967 ⊛ z 1573 ⊹ z 972 ⊛ z 1475
    ⊹ z 975 ⊛ z 1605 ⊝ z 540 ⊛ z 1710 ⊝ z 546 ⊛ z 1711 ⊝ z 970 ⊛ z 1533 ⊝ z 971 ⊛ z 1059),
(1718, z 539 ⊛ z 1709 ⊹ z 899 ⊛ z 1058 ⊹ z 900 ⊛ z 1472 ⊝ z 542 ⊛ z 1705 ⊝ z 922 ⊛ z 1532),
(1719, z 542 ⊛ z 1706 ⊹ z 915 ⊛ z 1472 ⊝ z 539 ⊛ z 1708 ⊝ z 911 ⊛ z 1058 ⊝ z 920 ⊛ z 1532 ⊝ z 934
    ⊛ z 1606),
(1720, z 1718 ⊹ z 543 ⊛ z 1695 ⊹ z 548 ⊛ z 1719 ⊹ z 551 ⊛ z 1700 ⊹ z 954 ⊛ z 1573 ⊹ z 958 ⊛ z 1475
    ⊹ z 961 ⊛ z 1605 ⊝ z 540 ⊛ z 1698 ⊝ z 546 ⊛ z 1699 ⊝ z 955 ⊛ z 1533 ⊝ z 957 ⊛ z 1059),
(1721, z 964 ⊛ z 1717 ⊹ z 979 ⊛ z 1701 ⊝ z 965 ⊛ z 1713 ⊝ z 978 ⊛ z 1720),
(1722, z 539 ⊛ z 1690 ⊹ z 542 ⊛ z 1686 ⊹ z 907 ⊛ z 1472 ⊝ z 902 ⊛ z 1532 ⊝ z 906 ⊛ z 1058),
(1723, z 965 ⊛ z 1702 ⊹ z 973 ⊛ z 1720 ⊝ z 960 ⊛ z 1717 ⊝ z 979 ⊛ z 1703),
(1724, z 983 ⊛ z 1714 ⊹ z 1003 ⊛ z 1691 ⊝ z 905 ⊛ z 1721 ⊝ z 982 ⊛ z 1723 ⊝ z 1004 ⊛ z 1722),
(1725, z 6 ⊛ (pow (z 3) 2 ⊹ pow (z 4) 2) ⊛ z 1574),
(1726, neg (z 1725) ⊛ q4p ⊝ z 3 ⊛ z 5 ⊛ z 43 ⊛ z 1574 ⊛ q3p ⊝ z 43 ⊛ z 1534 ⊛ z 271),
(1727, z 5 ⊛ (pow (z 3) 2 ⊹ pow (z 4) 2) ⊛ z 1574),
(1728, z 1727 ⊛ q4p ⊹ z 1574 ⊛ z 278 ⊹ z 43 ⊛ z 1534 ⊛ z 268 ⊝ z 3 ⊛ z 6 ⊛ z 43 ⊛ z 1574 ⊛ q3p),
(1729, z 47 ⊛ z 1574 ⊹ z 51 ⊛ z 1534),
(1730, z 48 ⊛ z 1574 ⊹ z 52 ⊛ z 1534),
(1731, ic33 ⊛ z 1730 ⊝ ic31 ⊛ z 50 ⊛ z 1534),
(1732, z 1729 ⊛ z 758 ⊹ z 1731 ⊛ z 266 ⊝ z 1730 ⊛ z 759 ⊝ ic22 ⊛ z 1729 ⊛ z 267),
(1733, (z 3 ⊛ z 5 ⊛ z 31 ⊹ z 3 ⊛ z 6 ⊛ z 41 ⊝ z 4 ⊛ z 5 ⊛ z 32 ⊝ z 4 ⊛ z 6 ⊛ z 42) ⊛ z 1574),
(1734, z 5 ⊛ (z 6 ⊝ z 3 ⊛ z 42 ⊝ z 4 ⊛ z 41) ⊛ z 1574),
(1735, z 1733 ⊛ q4p ⊹ z 1534 ⊛ z 276 ⊹ z 1574 ⊛ z 275 ⊝ n 2 ⊛ z 1734 ⊛ q5p),
(1736, ic31 ⊛ z 1730 ⊝ ic11 ⊛ z 50 ⊛ z 1534),
(1737, z 1730 ⊛ z 757 ⊹ z 1736 ⊛ z 267 ⊹ z 50 ⊛ z 1534 ⊛ z 758 ⊝ z 1731 ⊛ z 265),
(1738, z 64 ⊛ z 1534 ⊹ z 65 ⊛ z 1574),
(1739, z 61 ⊛ z 1534 ⊝ z 62 ⊛ z 1574),
(1740, z 1738 ⊛ z 781 ⊹ id11 ⊛ z 1739 ⊛ z 283 ⊝ z 1739 ⊛ z 783 ⊝ id11 ⊛ z 1738 ⊛ z 281),
(1741, ic22 ⊛ z 1729 ⊛ z 265 ⊝ z 1729 ⊛ z 757 ⊝ z 1736 ⊛ z 266 ⊝ z 50 ⊛ z 1534 ⊛ z 759),
(1742, neg (z 7) ⊛ z 1725 ⊝ z 8 ⊛ z 1727),
(1743, z 3 ⊛ (z 5 ⊛ z 7 ⊝ z 6 ⊛ z 8) ⊛ z 1574),
(1744, z 1742 ⊛ q4p ⊹ z 43 ⊛ z 1534 ⊛ z 285 ⊝ z 43 ⊛ z 1743 ⊛ q3p ⊝ z 1574 ⊛ z 286),
(1745, z 1729 ⊛ z 783 ⊹ id11 ⊛ z 1738 ⊛ z 282 ⊝ z 1738 ⊛ z 782 ⊝ id22 ⊛ z 1729 ⊛ z 283),
(1746, z 7 ⊛ z 1727 ⊝ z 8 ⊛ z 1725),
(1747, z 3 ⊛ (z 5 ⊛ z 8 ⊹ z 6 ⊛ z 7) ⊛ z 1574),
(1748, z 1746 ⊛ q4p ⊹ z 1574 ⊛ z 290 ⊹ z 43 ⊛ z 1534 ⊛ z 289 ⊝ z 43 ⊛ z 1747 ⊛ q3p),
(1749, z 1739 ⊛ z 782 ⊹ id22 ⊛ z 1729 ⊛ z 281 ⊝ z 1729 ⊛ z 781 ⊝ id11 ⊛ z 1739 ⊛ z 282),
(1750, z 4 ⊛ z 5 ⊛ z 10 ⊛ z 1574),
(1751, z 3 ⊛ z 5 ⊛ z 10 ⊛ z 1574),
(1752, z 31 ⊛ z 1751 ⊹ z 4 ⊛ z 6 ⊛ z 69 ⊛ z 1574 ⊝ z 32 ⊛ z 1750 ⊝ z 3 ⊛ z 6 ⊛ z 29 ⊛ z 1574),
(1753, z 4 ⊛ z 6 ⊛ z 10 ⊛ z 1574),
(1754, z 3 ⊛ z 6 ⊛ z 10 ⊛ z 1574),
(1755, z 5 ⊛ z 26 ⊛ z 1574 ⊹ z 5 ⊛ z 6 ⊛ z 10 ⊛ z 1574 ⊝ z 31 ⊛ z 1753 ⊝ z 32 ⊛ z 1754 ⊝ z 3 ⊛ z 6
    ⊛ z 72 ⊛ z 1574 ⊝ z 4 ⊛ z 6 ⊛ z 71 ⊛ z 1574),
(1756, z 3 ⊛ z 5 ⊛ z 9 ⊛ z 1574),
(1757, z 4 ⊛ z 5 ⊛ z 9 ⊛ z 1574),
(1758, z 31 ⊛ z 1757 ⊹ z 32 ⊛ z 1756 ⊹ z 4 ⊛ z 6 ⊛ z 70 ⊛ z 1574 ⊹ z 9 ⊛ pow (z 6) 2 ⊛ z 1574 ⊝ z
    5 ⊛ z 23 ⊛ z 1574 ⊝ z 3 ⊛ z 6 ⊛ z 66 ⊛ z 1574),
(1759, z 1752 ⊛ q4p ⊹ z 1755 ⊛ q5p ⊹ z 1758 ⊛ q7p ⊹ z 1574 ⊛ z 299 ⊹ z 43 ⊛ z 1534 ⊛ z 308 ⊝ z 43
    ⊛ z 1756 ⊛ q3p),
(1760, z 27 ⊛ z 1751 ⊹ z 29 ⊛ z 1756 ⊹ z 30 ⊛ z 1757 ⊝ z 66 ⊛ z 1750),
(1761, z 4 ⊛ z 6 ⊛ z 9 ⊛ z 1574),
(1762, z 3 ⊛ z 6 ⊛ z 9 ⊛ z 1574),
(1763, z 30 ⊛ z 1762 ⊹ z 5 ⊛ z 9 ⊛ z 25 ⊛ z 1574 ⊝ z 29 ⊛ z 1761 ⊝ z 67 ⊛ z 1750 ⊝ z 68 ⊛ z 1751 ⊝
    z 6 ⊛ z 10 ⊛ z 24 ⊛ z 1574),
(1764, n 2 ⊛ z 30 ⊛ z 1751 ⊝ n 2 ⊛ z 29 ⊛ z 1750 ⊝ n 2 ⊛ z 6 ⊛ z 10 ⊛ z 25 ⊛ z 1574),
(1765, z 1760 ⊛ q4p ⊹ z 1763 ⊛ q5p ⊹ z 1764 ⊛ q7p ⊹ z 1574 ⊛ z 317 ⊹ z 43 ⊛ z 1534 ⊛ z 268 ⊝ z 3 ⊛
    z 6 ⊛ z 43 ⊛ z 1574 ⊛ q3p),
(1766, z 76 ⊛ z 1574 ⊹ z 82 ⊛ z 1534),
(1767, z 73 ⊛ z 1574 ⊹ z 81 ⊛ z 1534),
(1768, z 52 ⊛ z 1534 ⊹ z 78 ⊛ z 1574),
(1769, ie31 ⊛ z 1767 ⊹ ie33 ⊛ z 1768),
(1770, z 1766 ⊛ z 801 ⊹ z 1769 ⊛ z 293 ⊝ z 1768 ⊛ z 802 ⊝ ie22 ⊛ z 1766 ⊛ z 294),
(1771, z 31 ⊛ z 1756 ⊹ z 3 ⊛ z 6 ⊛ z 27 ⊛ z 1574 ⊹ z 4 ⊛ z 6 ⊛ z 28 ⊛ z 1574 ⊝ z 32 ⊛ z 1757),
(1772, z 41 ⊛ z 1757 ⊹ z 42 ⊛ z 1756 ⊹ z 4 ⊛ z 5 ⊛ z 27 ⊛ z 1574 ⊝ z 6 ⊛ z 23 ⊛ z 1574 ⊝ z 3 ⊛ z 5
    ⊛ z 28 ⊛ z 1574 ⊝ z 5 ⊛ z 6 ⊛ z 9 ⊛ z 1574),
(1773, z 1771 ⊛ q4p ⊹ z 1772 ⊛ q5p ⊹ z 43 ⊛ z 1751 ⊛ q3p ⊹ z 1574 ⊛ z 311 ⊹ z 43 ⊛ z 1534 ⊛ z 313),
(1774, ie11 ⊛ z 1767 ⊹ ie31 ⊛ z 1768),
(1775, z 1768 ⊛ z 800 ⊹ z 1774 ⊛ z 294 ⊝ z 1767 ⊛ z 801 ⊝ z 1769 ⊛ z 292),
(1776, z 94 ⊛ z 1534 ⊹ z 95 ⊛ z 1574),
(1777, z 90 ⊛ z 1534 ⊹ z 91 ⊛ z 1574),
(1778, z 1776 ⊛ z 830 ⊹ if11 ⊛ z 1777 ⊛ z 323 ⊝ z 1777 ⊛ z 832 ⊝ if11 ⊛ z 1776 ⊛ z 321),
(1779, z 1767 ⊛ z 802 ⊹ ie22 ⊛ z 1766 ⊛ z 292 ⊝ z 1766 ⊛ z 800 ⊝ z 1774 ⊛ z 293),
(1780, z 11 ⊛ z 1752 ⊝ z 12 ⊛ z 1760 ⊝ z 11 ⊛ z 80 ⊛ z 1607 ⊝ z 12 ⊛ z 74 ⊛ z 1607),
(1781, z 11 ⊛ z 1755 ⊝ z 12 ⊛ z 1763 ⊝ z 11 ⊛ z 78 ⊛ z 1607 ⊝ z 12 ⊛ z 73 ⊛ z 1607),
(1782, z 11 ⊛ z 1758 ⊝ z 12 ⊛ z 1764 ⊝ z 11 ⊛ z 79 ⊛ z 1607 ⊝ z 12 ⊛ z 75 ⊛ z 1607),
(1783, z 3 ⊛ z 6 ⊛ z 12 ⊛ z 1574 ⊝ z 11 ⊛ z 1756 ⊝ z 11 ⊛ z 32 ⊛ z 1607 ⊝ z 12 ⊛ z 28 ⊛ z 1607),
(1784, z 1780 ⊛ q4p ⊹ z 1781 ⊛ q5p ⊹ z 1782 ⊛ q7p ⊹ z 43 ⊛ z 1783 ⊛ q3p ⊹ z 1574 ⊛ z 325 ⊹ z 43 ⊛
    z 1534 ⊛ z 324),
(1785, z 76 ⊛ z 1574 ⊹ z 82 ⊛ z 1534 ⊹ z 83 ⊛ z 1607),
(1786, z 1785 ⊛ z 832 ⊹ if11 ⊛ z 1776 ⊛ z 322 ⊝ z 1776 ⊛ z 831 ⊝ if22 ⊛ z 1785 ⊛ z 323),
(1787, z 11 ⊛ z 1760 ⊹ z 12 ⊛ z 1752 ⊹ z 11 ⊛ z 74 ⊛ z 1607 ⊝ z 12 ⊛ z 80 ⊛ z 1607),
(1788, z 11 ⊛ z 1763 ⊹ z 12 ⊛ z 1755 ⊹ z 11 ⊛ z 73 ⊛ z 1607 ⊝ z 12 ⊛ z 78 ⊛ z 1607),
(1789, z 11 ⊛ z 1764 ⊹ z 12 ⊛ z 1758 ⊹ z 11 ⊛ z 75 ⊛ z 1607 ⊝ z 12 ⊛ z 79 ⊛ z 1607),
(1790, z 11 ⊛ z 28 ⊛ z 1607 ⊝ z 12 ⊛ z 1756 ⊝ z 12 ⊛ z 32 ⊛ z 1607 ⊝ z 3 ⊛ z 6 ⊛ z 11 ⊛ z 1574),
(1791, z 1787 ⊛ q4p ⊹ z 1788 ⊛ q5p ⊹ z 1789 ⊛ q7p ⊹ z 43 ⊛ z 1790 ⊛ q3p ⊹ z 1574 ⊛ z 330 ⊹ z 43 ⊛
    z 1534 ⊛ z 329),
(1792, z 1777 ⊛ z 831 ⊹ if22 ⊛ z 1785 ⊛ z 321 ⊝ z 1785 ⊛ z 830 ⊝ if11 ⊛ z 1777 ⊛ z 322),
(1793, z 14 ⊛ z 1727 ⊝ z 13 ⊛ z 1725),
(1794, z 3 ⊛ (z 13 ⊛ z 5 ⊹ z 14 ⊛ z 6) ⊛ z 1574),
(1795, z 1793 ⊛ q4p ⊹ z 14 ⊛ z 1574 ⊛ z 278 ⊹ z 43 ⊛ z 1534 ⊛ z 341 ⊝ z 43 ⊛ z 1794 ⊛ q3p),
(1796, z 18 ⊛ z 1725 ⊹ z 20 ⊛ z 1727 ⊝ z 15 ⊛ z 1733),
(1797, z 3 ⊛ (z 5 ⊛ z 18 ⊝ z 6 ⊛ z 20) ⊛ z 1574),
(1798, z 1796 ⊛ q4p ⊹ z 43 ⊛ z 1797 ⊛ q3p ⊹ n 2 ⊛ z 15 ⊛ z 1734 ⊛ q5p ⊹ z 1574 ⊛ z 349 ⊹ z 43 ⊛ z
    1534 ⊛ z 348),
(1799, z 112 ⊛ z 1534 ⊹ z 114 ⊛ z 1574),
(1800, z 110 ⊛ z 1534 ⊹ z 111 ⊛ z 1574),
(1801, z 115 ⊛ z 1534 ⊹ z 116 ⊛ z 1574),
(1802, ig31 ⊛ z 1800 ⊹ ig33 ⊛ z 1801),
(1803, z 1799 ⊛ z 852 ⊹ z 1802 ⊛ z 335 ⊝ z 1801 ⊛ z 853 ⊝ ig22 ⊛ z 1799 ⊛ z 336),
(1804, z 16 ⊛ z 1725 ⊹ z 17 ⊛ z 1733 ⊹ z 19 ⊛ z 1727)]

/-- _mooreriderlean2012.py:2730-2832 -/
def part19 : List (ℕ × E) := [
(1805, z 3 ⊛ (z 5 ⊛ z 16 ⊝ z 6 ⊛ z 19) ⊛ z 1574),
(1806, z 1804 ⊛ q4p ⊹ z 43 ⊛ z 1805 ⊛ q3p ⊹ z 1574 ⊛ z 346 ⊹ z 43 ⊛ z 1534 ⊛ z 344 ⊝ n 2 ⊛ z 17 ⊛
    z 1734 ⊛ q5p),
(1807, ig11 ⊛ z 1800 ⊹ ig31 ⊛ z 1801),
(1808, z 1801 ⊛ z 851 ⊹ z 1807 ⊛ z 336 ⊝ z 1800 ⊛ z 852 ⊝ z 1802 ⊛ z 334),
(1809, z 1800 ⊛ z 853 ⊹ ig22 ⊛ z 1799 ⊛ z 334 ⊝ z 1799 ⊛ z 851 ⊝ z 1807 ⊛ z 335),
(1810, z 1534 ⊛ (z 354 ⊹ z 3 ⊛ z 43 ⊛ z 353)),
(1811, z 1534 ⊛ (z 43 ⊛ z 352 ⊹ z 118 ⊛ z 356)),
(1812, neg (z 5) ⊛ z 1810 ⊝ z 41 ⊛ z 1811),
(1813, z 1729 ⊛ (z 173 ⊛ q4p ⊹ z 174 ⊛ q5p ⊹ z 175 ⊛ q3p) ⊹ z 1812 ⊹ z 22 ⊛ z 1735 ⊹ (z 174 ⊛ z
    1574 ⊹ z 175 ⊛ z 1534) ⊛ z 266 ⊝ z 1730 ⊛ (z 170 ⊛ q4p ⊹ z 171 ⊛ q3p ⊝ z 172 ⊛ q5p) ⊝ (z 171 ⊛
    z 1534 ⊝ z 172 ⊛ z 1574) ⊛ z 267),
(1814, z 31 ⊛ z 1811 ⊝ z 6 ⊛ z 1810),
(1815, z 1814 ⊹ z 21 ⊛ z 1735 ⊹ (z 171 ⊛ z 1534 ⊝ z 172 ⊛ z 1574) ⊛ z 265 ⊝ z 1729 ⊛ (z 176 ⊛ q4p
    ⊹ z 177 ⊛ q5p ⊹ z 178 ⊛ q3p) ⊝ z 50 ⊛ z 1534 ⊛ (z 170 ⊛ q4p ⊹ z 171 ⊛ q3p ⊝ z 172 ⊛ q5p) ⊝ (z
    177 ⊛ z 1574 ⊹ z 178 ⊛ z 1534) ⊛ z 266),
(1816, z 13 ⊛ z 1813 ⊹ z 14 ⊛ z 1815),
(1817, z 1816 ⊹ l6 ⊛ z 1806 ⊝ z 1799 ⊛ (z 201 ⊛ q9p ⊹ z 202 ⊛ q3p ⊹ z 203 ⊛ q4p ⊹ z 204 ⊛ q5p) ⊝ z
    1801 ⊛ (z 197 ⊛ q3p ⊹ z 198 ⊛ q5p ⊹ z 199 ⊛ q4p ⊝ z 200 ⊛ q9p) ⊝ (z 197 ⊛ z 1534 ⊹ z 198 ⊛ z
    1574) ⊛ z 336 ⊝ (z 202 ⊛ z 1534 ⊹ z 204 ⊛ z 1574) ⊛ z 335),
(1818, neg (z 21) ⊛ z 1728 ⊝ z 22 ⊛ z 1726),
(1819, z 1730 ⊛ (z 176 ⊛ q4p ⊹ z 177 ⊛ q5p ⊹ z 178 ⊛ q3p) ⊹ z 50 ⊛ z 1534 ⊛ (z 173 ⊛ q4p ⊹ z 174 ⊛
    q5p ⊹ z 175 ⊛ q3p) ⊹ z 1818 ⊹ (z 177 ⊛ z 1574 ⊹ z 178 ⊛ z 1534) ⊛ z 267 ⊝ z 3 ⊛ z 1811 ⊝ (z
    174 ⊛ z 1574 ⊹ z 175 ⊛ z 1534) ⊛ z 265),
(1820, z 17 ⊛ z 1819 ⊹ z 19 ⊛ z 1815 ⊝ z 16 ⊛ z 1813),
(1821, l5 ⊛ z 1798 ⊝ l6 ⊛ z 1795),
(1822, z 1800 ⊛ (z 201 ⊛ q9p ⊹ z 202 ⊛ q3p ⊹ z 203 ⊛ q4p ⊹ z 204 ⊛ q5p) ⊹ z 1801 ⊛ (z 205 ⊛ q9p ⊹
    z 206 ⊛ q3p ⊹ z 207 ⊛ q4p ⊹ z 208 ⊛ q5p) ⊹ z 1820 ⊹ z 1821 ⊹ (z 202 ⊛ z 1534 ⊹ z 204 ⊛ z 1574)
    ⊛ z 334 ⊹ (z 206 ⊛ z 1534 ⊹ z 208 ⊛ z 1574) ⊛ z 336),
(1823, z 20 ⊛ z 1815 ⊝ z 15 ⊛ z 1819 ⊝ z 18 ⊛ z 1813),
(1824, z 1800 ⊛ (z 197 ⊛ q3p ⊹ z 198 ⊛ q5p ⊹ z 199 ⊛ q4p ⊝ z 200 ⊛ q9p) ⊹ z 1823 ⊹ (z 197 ⊛ z 1534
    ⊹ z 198 ⊛ z 1574) ⊛ z 334 ⊝ z 1799 ⊛ (z 205 ⊛ q9p ⊹ z 206 ⊛ q3p ⊹ z 207 ⊛ q4p ⊹ z 208 ⊛ q5p) ⊝
    l5 ⊛ z 1806 ⊝ (z 206 ⊛ z 1534 ⊹ z 208 ⊛ z 1574) ⊛ z 335),
(1825, z 1814 ⊹ (z 128 ⊛ z 1574 ⊹ z 130 ⊛ z 1534) ⊛ z 265 ⊝ z 1729 ⊛ (z 134 ⊛ q4p ⊹ z 135 ⊛ q5p ⊹
    z 136 ⊛ q3p) ⊝ z 50 ⊛ z 1534 ⊛ (z 128 ⊛ q5p ⊹ z 129 ⊛ q4p ⊹ z 130 ⊛ q3p) ⊝ l1 ⊛ z 1735 ⊝ (z
    135 ⊛ z 1574 ⊹ z 136 ⊛ z 1534) ⊛ z 266),
(1826, z 1812 ⊹ l2 ⊛ z 1735 ⊝ z 1729 ⊛ (z 131 ⊛ q4p ⊹ z 132 ⊛ q5p ⊹ z 133 ⊛ q3p) ⊝ z 1730 ⊛ (z 128
    ⊛ q5p ⊹ z 129 ⊛ q4p ⊹ z 130 ⊛ q3p) ⊝ (z 128 ⊛ z 1574 ⊹ z 130 ⊛ z 1534) ⊛ z 267 ⊝ (z 132 ⊛ z
    1574 ⊹ z 133 ⊛ z 1534) ⊛ z 266),
(1827, l1 ⊛ z 1728 ⊝ l2 ⊛ z 1726),
(1828, z 1730 ⊛ (z 134 ⊛ q4p ⊹ z 135 ⊛ q5p ⊹ z 136 ⊛ q3p) ⊹ z 1827 ⊹ (z 132 ⊛ z 1574 ⊹ z 133 ⊛ z
    1534) ⊛ z 265 ⊹ (z 135 ⊛ z 1574 ⊹ z 136 ⊛ z 1534) ⊛ z 267 ⊝ z 50 ⊛ z 1534 ⊛ (z 131 ⊛ q4p ⊹ z
    132 ⊛ q5p ⊹ z 133 ⊛ q3p) ⊝ z 3 ⊛ z 1811),
(1829, z 1814 ⊹ (z 143 ⊛ z 1574 ⊹ z 145 ⊛ z 1534) ⊛ z 265 ⊝ z 50 ⊛ z 1534 ⊛ (z 143 ⊛ q5p ⊹ z 144 ⊛
    q4p ⊹ z 145 ⊛ q3p) ⊝ d1 ⊛ z 1735),
(1830, z 1767 ⊛ (z 159 ⊛ q3p ⊹ z 160 ⊛ q5p ⊹ z 161 ⊛ q7p ⊹ z 162 ⊛ q4p) ⊹ (z 159 ⊛ z 1534 ⊹ z 160
    ⊛ z 1574) ⊛ z 292 ⊝ z 1766 ⊛ (z 164 ⊛ q5p ⊹ z 165 ⊛ q4p ⊹ z 166 ⊛ q3p) ⊝ z 158 ⊛ z 1773 ⊝ (z
    164 ⊛ z 1574 ⊹ z 166 ⊛ z 1534) ⊛ z 293),
(1831, z 1812 ⊝ z 1729 ⊛ (z 140 ⊛ q4p ⊹ z 141 ⊛ q5p ⊹ z 142 ⊛ q3p) ⊝ z 1730 ⊛ (z 143 ⊛ q5p ⊹ z 144
    ⊛ q4p ⊹ z 145 ⊛ q3p) ⊝ (z 141 ⊛ z 1574 ⊹ z 142 ⊛ z 1534) ⊛ z 266 ⊝ (z 143 ⊛ z 1574 ⊹ z 145 ⊛ z
    1534) ⊛ z 267),
(1832, d1 ⊛ z 1728 ⊹ (z 141 ⊛ z 1574 ⊹ z 142 ⊛ z 1534) ⊛ z 265 ⊝ z 50 ⊛ z 1534 ⊛ (z 140 ⊛ q4p ⊹ z
    141 ⊛ q5p ⊹ z 142 ⊛ q3p) ⊝ z 3 ⊛ z 1811),
(1833, z 158 ⊛ z 1765 ⊝ d2 ⊛ z 1759 ⊝ l4 ⊛ z 1759),
(1834, z 1767 ⊛ (z 167 ⊛ q5p ⊹ z 168 ⊛ q4p ⊹ z 169 ⊛ q3p) ⊹ z 1768 ⊛ (z 164 ⊛ q5p ⊹ z 165 ⊛ q4p ⊹
    z 166 ⊛ q3p) ⊹ z 1833 ⊹ (z 164 ⊛ z 1574 ⊹ z 166 ⊛ z 1534) ⊛ z 294 ⊹ (z 167 ⊛ z 1574 ⊹ z 169 ⊛
    z 1534) ⊛ z 292),
(1835, z 163 ⊛ z 1773 ⊝ z 1766 ⊛ (z 167 ⊛ q5p ⊹ z 168 ⊛ q4p ⊹ z 169 ⊛ q3p) ⊝ z 1768 ⊛ (z 159 ⊛ q3p
    ⊹ z 160 ⊛ q5p ⊹ z 161 ⊛ q7p ⊹ z 162 ⊛ q4p) ⊝ (z 159 ⊛ z 1534 ⊹ z 160 ⊛ z 1574) ⊛ z 294 ⊝ (z
    167 ⊛ z 1574 ⊹ z 169 ⊛ z 1534) ⊛ z 293),
(1836, z 1767 ⊛ (z 148 ⊛ q3p ⊹ z 149 ⊛ q5p ⊹ z 150 ⊛ q7p ⊹ z 151 ⊛ q4p) ⊹ (z 148 ⊛ z 1534 ⊹ z 149
    ⊛ z 1574) ⊛ z 292 ⊝ z 1766 ⊛ (z 152 ⊛ q5p ⊹ z 153 ⊛ q4p ⊹ z 154 ⊛ q3p) ⊝ d3 ⊛ z 1773 ⊝ (z 152
    ⊛ z 1574 ⊹ z 154 ⊛ z 1534) ⊛ z 293),
(1837, d3 ⊛ z 1765 ⊝ d2 ⊛ z 1759),
(1838, z 1767 ⊛ (z 155 ⊛ q5p ⊹ z 156 ⊛ q4p ⊹ z 157 ⊛ q3p) ⊹ z 1768 ⊛ (z 152 ⊛ q5p ⊹ z 153 ⊛ q4p ⊹
    z 154 ⊛ q3p) ⊹ z 1837 ⊹ (z 152 ⊛ z 1574 ⊹ z 154 ⊛ z 1534) ⊛ z 294 ⊹ (z 155 ⊛ z 1574 ⊹ z 157 ⊛
    z 1534) ⊛ z 292),
(1839, d2 ⊛ z 1773 ⊝ z 1766 ⊛ (z 155 ⊛ q5p ⊹ z 156 ⊛ q4p ⊹ z 157 ⊛ q3p) ⊝ z 1768 ⊛ (z 148 ⊛ q3p ⊹
    z 149 ⊛ q5p ⊹ z 150 ⊛ q7p ⊹ z 151 ⊛ q4p) ⊝ (z 148 ⊛ z 1534 ⊹ z 149 ⊛ z 1574) ⊛ z 294 ⊝ (z 155
    ⊛ z 1574 ⊹ z 157 ⊛ z 1534) ⊛ z 293),
(1840, z 45 ⊛ z 1732 ⊹ z 46 ⊛ z 1737 ⊹ z 46 ⊛ z 1740 ⊹ z 49 ⊛ z 1741 ⊹ z 60 ⊛ z 1745 ⊹ z 63 ⊛ z
    1749 ⊹ z 74 ⊛ z 1770 ⊹ z 77 ⊛ z 1775 ⊹ z 77 ⊛ z 1778 ⊹ z 80 ⊛ z 1779 ⊹ z 92 ⊛ z 1786 ⊹ z 97 ⊛
    z 1792 ⊹ z 109 ⊛ z 1803 ⊹ z 113 ⊛ z 1808 ⊹ z 117 ⊛ z 1809 ⊹ ic11 ⊛ z 45 ⊛ z 1726 ⊹ ic22 ⊛ z 46
    ⊛ z 1735 ⊹ ic31 ⊛ z 45 ⊛ z 1728 ⊹ ic31 ⊛ z 49 ⊛ z 1726 ⊹ ic33 ⊛ z 49 ⊛ z 1728 ⊹ id11 ⊛ z 60 ⊛
    z 1744 ⊹ id11 ⊛ z 63 ⊛ z 1748 ⊹ id22 ⊛ z 46 ⊛ z 1735 ⊹ ie11 ⊛ z 74 ⊛ z 1759 ⊹ ie22 ⊛ z 77 ⊛ z
    1773 ⊹ ie31 ⊛ z 74 ⊛ z 1765 ⊹ ie31 ⊛ z 80 ⊛ z 1759 ⊹ ie33 ⊛ z 80 ⊛ z 1765 ⊹ if11 ⊛ z 92 ⊛ z
    1784 ⊹ if11 ⊛ z 97 ⊛ z 1791 ⊹ if22 ⊛ z 77 ⊛ z 1773 ⊹ ig11 ⊛ z 109 ⊛ z 1795 ⊹ ig22 ⊛ z 113 ⊛ z
    1806 ⊹ ig31 ⊛ z 109 ⊛ z 1798 ⊹ ig31 ⊛ z 117 ⊛ z 1795 ⊹ ig33 ⊛ z 117 ⊛ z 1798 ⊹ mg ⊛ (z 209 ⊛ z
    1817 ⊹ z 212 ⊛ z 1822 ⊹ z 215 ⊛ z 1824) ⊝ md ⊛ z 3 ⊛ z 119 ⊛ z 1811 ⊝ mc ⊛ (z 131 ⊛ z 1825 ⊝ z
    134 ⊛ z 1826 ⊝ z 139 ⊛ z 1828) ⊝ me ⊛ (z 140 ⊛ z 1829 ⊹ z 140 ⊛ z 1830 ⊹ z 168 ⊛ z 1829 ⊹ z
    168 ⊛ z 1830 ⊹ z 10 ⊛ z 162 ⊛ z 1831 ⊝ z 147 ⊛ z 1832 ⊝ z 162 ⊛ z 1834 ⊝ z 165 ⊛ z 1835 ⊝ z 9
    ⊛ z 147 ⊛ z 1834 ⊝ z 9 ⊛ z 162 ⊛ z 1832 ⊝ z 9 ⊛ z 165 ⊛ z 1831 ⊝ z 10 ⊛ z 147 ⊛ z 1835 ⊝ z 10
    ⊛ z 165 ⊛ z 1832) ⊝ mf ⊛ (z 140 ⊛ z 1829 ⊹ z 140 ⊛ z 1836 ⊹ z 156 ⊛ z 1829 ⊹ z 156 ⊛ z 1836 ⊹
    z 10 ⊛ z 151 ⊛ z 1831 ⊝ z 147 ⊛ z 1832 ⊝ z 151 ⊛ z 1838 ⊝ z 153 ⊛ z 1839 ⊝ z 9 ⊛ z 147 ⊛ z
    1838 ⊝ z 9 ⊛ z 151 ⊛ z 1832 ⊝ z 9 ⊛ z 153 ⊛ z 1831 ⊝ z 10 ⊛ z 147 ⊛ z 1839 ⊝ z 10 ⊛ z 153 ⊛ z
    1832)),
(1841, mg ⊛ (z 182 ⊛ z 1817 ⊹ z 187 ⊛ z 1822 ⊹ z 192 ⊛ z 1824 ⊹ z 1687 ⊛ z 399 ⊹ z 1688 ⊛ z 400 ⊹
    z 1689 ⊛ z 401) ⊹ mc ⊛ (z 120 ⊛ z 1826 ⊹ z 122 ⊛ z 1825 ⊹ z 1049 ⊛ z 369 ⊹ z 1050 ⊛ z 367 ⊝ z
    121 ⊛ z 1828 ⊝ z 1 ⊛ z 3 ⊛ z 368) ⊹ me ⊛ (z 120 ⊛ z 1831 ⊹ z 122 ⊛ z 1829 ⊹ z 122 ⊛ z 1830 ⊹ z
    1049 ⊛ z 374 ⊹ z 1049 ⊛ z 386 ⊹ z 1050 ⊛ z 372 ⊹ z 9 ⊛ z 120 ⊛ z 1835 ⊹ z 9 ⊛ z 1050 ⊛ z 385 ⊝
    z 121 ⊛ z 1832 ⊝ z 1 ⊛ z 3 ⊛ z 373 ⊝ z 9 ⊛ z 121 ⊛ z 1834 ⊝ z 10 ⊛ z 120 ⊛ z 1834 ⊝ z 10 ⊛ z
    121 ⊛ z 1835 ⊝ z 10 ⊛ z 1050 ⊛ z 384 ⊝ z 1 ⊛ z 3 ⊛ z 9 ⊛ z 384 ⊝ z 1 ⊛ z 3 ⊛ z 10 ⊛ z 385) ⊹
    mf ⊛ (z 120 ⊛ z 1831 ⊹ z 122 ⊛ z 1829 ⊹ z 122 ⊛ z 1836 ⊹ z 1049 ⊛ z 374 ⊹ z 1049 ⊛ z 380 ⊹ z
    1050 ⊛ z 372 ⊹ z 9 ⊛ z 120 ⊛ z 1839 ⊹ z 9 ⊛ z 1050 ⊛ z 379 ⊝ z 121 ⊛ z 1832 ⊝ z 1 ⊛ z 3 ⊛ z
    373 ⊝ z 9 ⊛ z 121 ⊛ z 1838 ⊝ z 10 ⊛ z 120 ⊛ z 1838 ⊝ z 10 ⊛ z 121 ⊛ z 1839 ⊝ z 10 ⊛ z 1050 ⊛ z
    378 ⊝ z 1 ⊛ z 3 ⊛ z 9 ⊛ z 378 ⊝ z 1 ⊛ z 3 ⊛ z 10 ⊛ z 379) ⊝ md ⊛ (z 1 ⊛ z 1810 ⊹ z 2 ⊛ z 359 ⊝
    z 1 ⊛ z 358 ⊝ z 2 ⊛ z 1811 ⊝ z 1 ⊛ z 4 ⊛ z 360))]

/-- _mooreriderlean2012.py:2833-2942 -/
def part20 : List (ℕ × E) := [
(1842, z 51 ⊛ z 1737 ⊹ z 51 ⊛ z 1740 ⊹ z 52 ⊛ z 1741 ⊹ z 52 ⊛ z 1779 ⊹ z 61 ⊛ z 1745 ⊹ z 64 ⊛ z
    1749 ⊹ z 81 ⊛ z 1770 ⊹ z 82 ⊛ z 1775 ⊹ z 82 ⊛ z 1778 ⊹ z 90 ⊛ z 1786 ⊹ z 94 ⊛ z 1792 ⊹ z 110 ⊛
    z 1803 ⊹ z 112 ⊛ z 1808 ⊹ z 115 ⊛ z 1809 ⊹ ic22 ⊛ z 51 ⊛ z 1735 ⊹ ic31 ⊛ z 52 ⊛ z 1726 ⊹ ic33
    ⊛ z 52 ⊛ z 1728 ⊹ id11 ⊛ z 61 ⊛ z 1744 ⊹ id11 ⊛ z 64 ⊛ z 1748 ⊹ id22 ⊛ z 51 ⊛ z 1735 ⊹ ie11 ⊛
    z 81 ⊛ z 1759 ⊹ ie22 ⊛ z 82 ⊛ z 1773 ⊹ ie31 ⊛ z 52 ⊛ z 1759 ⊹ ie31 ⊛ z 81 ⊛ z 1765 ⊹ ie33 ⊛ z
    52 ⊛ z 1765 ⊹ if11 ⊛ z 90 ⊛ z 1784 ⊹ if11 ⊛ z 94 ⊛ z 1791 ⊹ if22 ⊛ z 82 ⊛ z 1773 ⊹ ig11 ⊛ z
    110 ⊛ z 1795 ⊹ ig22 ⊛ z 112 ⊛ z 1806 ⊹ ig31 ⊛ z 110 ⊛ z 1798 ⊹ ig31 ⊛ z 115 ⊛ z 1795 ⊹ ig33 ⊛
    z 115 ⊛ z 1798 ⊹ md ⊛ z 118 ⊛ z 1810 ⊹ mc ⊛ (z 130 ⊛ z 1828 ⊹ z 137 ⊛ z 1826 ⊹ z 138 ⊛ z 1825)
    ⊹ mg ⊛ (z 211 ⊛ z 1817 ⊹ z 214 ⊛ z 1822 ⊹ z 217 ⊛ z 1824) ⊝ z 50 ⊛ z 1732 ⊝ ic11 ⊛ z 50 ⊛ z
    1726 ⊝ ic31 ⊛ z 50 ⊛ z 1728 ⊝ me ⊛ (z 126 ⊛ z 1831 ⊹ z 169 ⊛ z 1829 ⊹ z 169 ⊛ z 1830 ⊹ z 9 ⊛ z
    126 ⊛ z 1835 ⊹ z 10 ⊛ z 159 ⊛ z 1831 ⊝ z 145 ⊛ z 1832 ⊝ z 146 ⊛ z 1829 ⊝ z 146 ⊛ z 1830 ⊝ z
    159 ⊛ z 1834 ⊝ z 166 ⊛ z 1835 ⊝ z 9 ⊛ z 145 ⊛ z 1834 ⊝ z 9 ⊛ z 159 ⊛ z 1832 ⊝ z 9 ⊛ z 166 ⊛ z
    1831 ⊝ z 10 ⊛ z 126 ⊛ z 1834 ⊝ z 10 ⊛ z 145 ⊛ z 1835 ⊝ z 10 ⊛ z 166 ⊛ z 1832) ⊝ mf ⊛ (z 126 ⊛
    z 1831 ⊹ z 157 ⊛ z 1829 ⊹ z 157 ⊛ z 1836 ⊹ z 9 ⊛ z 126 ⊛ z 1839 ⊹ z 10 ⊛ z 148 ⊛ z 1831 ⊝ z
    145 ⊛ z 1832 ⊝ z 146 ⊛ z 1829 ⊝ z 146 ⊛ z 1836 ⊝ z 148 ⊛ z 1838 ⊝ z 154 ⊛ z 1839 ⊝ z 9 ⊛ z 145
    ⊛ z 1838 ⊝ z 9 ⊛ z 148 ⊛ z 1832 ⊝ z 9 ⊛ z 154 ⊛ z 1831 ⊝ z 10 ⊛ z 126 ⊛ z 1838 ⊝ z 10 ⊛ z 145
    ⊛ z 1839 ⊝ z 10 ⊛ z 154 ⊛ z 1832)),
(1843, z 47 ⊛ z 1737 ⊹ z 47 ⊛ z 1740 ⊹ z 48 ⊛ z 1741 ⊹ z 65 ⊛ z 1749 ⊹ z 73 ⊛ z 1770 ⊹ z 76 ⊛ z
    1775 ⊹ z 76 ⊛ z 1778 ⊹ z 78 ⊛ z 1779 ⊹ z 91 ⊛ z 1786 ⊹ z 95 ⊛ z 1792 ⊹ z 111 ⊛ z 1803 ⊹ z 114
    ⊛ z 1808 ⊹ z 116 ⊛ z 1809 ⊹ ic22 ⊛ z 47 ⊛ z 1735 ⊹ ic31 ⊛ z 48 ⊛ z 1726 ⊹ ic33 ⊛ z 48 ⊛ z 1728
    ⊹ id11 ⊛ z 65 ⊛ z 1748 ⊹ id22 ⊛ z 47 ⊛ z 1735 ⊹ ie11 ⊛ z 73 ⊛ z 1759 ⊹ ie22 ⊛ z 76 ⊛ z 1773 ⊹
    ie31 ⊛ z 73 ⊛ z 1765 ⊹ ie31 ⊛ z 78 ⊛ z 1759 ⊹ ie33 ⊛ z 78 ⊛ z 1765 ⊹ if11 ⊛ z 91 ⊛ z 1784 ⊹
    if11 ⊛ z 95 ⊛ z 1791 ⊹ if22 ⊛ z 76 ⊛ z 1773 ⊹ ig11 ⊛ z 111 ⊛ z 1795 ⊹ ig22 ⊛ z 114 ⊛ z 1806 ⊹
    ig31 ⊛ z 111 ⊛ z 1798 ⊹ ig31 ⊛ z 116 ⊛ z 1795 ⊹ ig33 ⊛ z 116 ⊛ z 1798 ⊹ mg ⊛ (z 210 ⊛ z 1817 ⊹
    z 213 ⊛ z 1822 ⊹ z 216 ⊛ z 1824) ⊝ z 62 ⊛ z 1745 ⊝ id11 ⊛ z 62 ⊛ z 1744 ⊝ mc ⊛ (z 132 ⊛ z 1825
    ⊝ z 128 ⊛ z 1828 ⊝ z 135 ⊛ z 1826) ⊝ me ⊛ (z 141 ⊛ z 1829 ⊹ z 141 ⊛ z 1830 ⊹ z 167 ⊛ z 1829 ⊹
    z 167 ⊛ z 1830 ⊹ z 10 ⊛ z 160 ⊛ z 1831 ⊝ z 143 ⊛ z 1832 ⊝ z 160 ⊛ z 1834 ⊝ z 164 ⊛ z 1835 ⊝ z
    9 ⊛ z 143 ⊛ z 1834 ⊝ z 9 ⊛ z 160 ⊛ z 1832 ⊝ z 9 ⊛ z 164 ⊛ z 1831 ⊝ z 10 ⊛ z 143 ⊛ z 1835 ⊝ z
    10 ⊛ z 164 ⊛ z 1832) ⊝ mf ⊛ (z 141 ⊛ z 1829 ⊹ z 141 ⊛ z 1836 ⊹ z 155 ⊛ z 1829 ⊹ z 155 ⊛ z 1836
    ⊹ z 10 ⊛ z 149 ⊛ z 1831 ⊝ z 143 ⊛ z 1832 ⊝ z 149 ⊛ z 1838 ⊝ z 152 ⊛ z 1839 ⊝ z 9 ⊛ z 143 ⊛ z
    1838 ⊝ z 9 ⊛ z 149 ⊛ z 1832 ⊝ z 9 ⊛ z 152 ⊛ z 1831 ⊝ z 10 ⊛ z 143 ⊛ z 1839 ⊝ z 10 ⊛ z 152 ⊛ z
    1832)),
(1844, z 83 ⊛ (z 1778 ⊹ if22 ⊛ z 1773)),
(1845, mg ⊛ (z 182 ⊛ z 399 ⊹ z 183 ⊛ z 1817 ⊹ z 188 ⊛ z 1822 ⊹ z 193 ⊛ z 1824 ⊹ z 1684 ⊛ z 400 ⊹ z
    1685 ⊛ z 401) ⊹ mc ⊛ (z 120 ⊛ z 367 ⊹ z 122 ⊛ z 369 ⊹ z 123 ⊛ z 1826 ⊹ z 124 ⊛ z 1828 ⊹ z 125
    ⊛ z 1825 ⊝ z 2 ⊛ z 3 ⊛ z 368) ⊹ me ⊛ (z 120 ⊛ z 372 ⊹ z 122 ⊛ z 374 ⊹ z 122 ⊛ z 386 ⊹ z 123 ⊛
    z 1831 ⊹ z 124 ⊛ z 1832 ⊹ z 125 ⊛ z 1829 ⊹ z 125 ⊛ z 1830 ⊹ z 9 ⊛ z 120 ⊛ z 385 ⊹ z 9 ⊛ z 123
    ⊛ z 1835 ⊹ z 9 ⊛ z 124 ⊛ z 1834 ⊹ z 10 ⊛ z 124 ⊛ z 1835 ⊝ z 2 ⊛ z 3 ⊛ z 373 ⊝ z 10 ⊛ z 120 ⊛ z
    384 ⊝ z 10 ⊛ z 123 ⊛ z 1834 ⊝ z 2 ⊛ z 3 ⊛ z 9 ⊛ z 384 ⊝ z 2 ⊛ z 3 ⊛ z 10 ⊛ z 385) ⊹ mf ⊛ (z
    120 ⊛ z 372 ⊹ z 122 ⊛ z 374 ⊹ z 122 ⊛ z 380 ⊹ z 123 ⊛ z 1831 ⊹ z 124 ⊛ z 1832 ⊹ z 125 ⊛ z 1829
    ⊹ z 125 ⊛ z 1836 ⊹ z 9 ⊛ z 120 ⊛ z 379 ⊹ z 9 ⊛ z 123 ⊛ z 1839 ⊹ z 9 ⊛ z 124 ⊛ z 1838 ⊹ z 10 ⊛
    z 124 ⊛ z 1839 ⊝ z 2 ⊛ z 3 ⊛ z 373 ⊝ z 10 ⊛ z 120 ⊛ z 378 ⊝ z 10 ⊛ z 123 ⊛ z 1838 ⊝ z 2 ⊛ z 3
    ⊛ z 9 ⊛ z 378 ⊝ z 2 ⊛ z 3 ⊛ z 10 ⊛ z 379) ⊝ md ⊛ (z 1 ⊛ z 1811 ⊹ z 2 ⊛ z 1810 ⊝ z 1 ⊛ z 359 ⊝
    z 2 ⊛ z 358 ⊝ z 2 ⊛ z 4 ⊛ z 360)),
(1846, z 1840 ⊹ z 538 ⊛ z 1841 ⊹ z 544 ⊛ z 1842 ⊹ z 547 ⊛ z 1843 ⊹ z 549 ⊛ z 1844 ⊹ z 1057 ⊛ z 913
    ⊹ z 1531 ⊛ z 925 ⊹ z 1572 ⊛ z 933 ⊹ z 1604 ⊛ z 938 ⊝ z 541 ⊛ z 1845 ⊝ z 1478 ⊛ z 917),
(1847, z 538 ⊛ z 1697 ⊹ z 912 ⊛ z 1057 ⊹ z 919 ⊛ z 1531 ⊹ z 927 ⊛ z 1572 ⊹ z 936 ⊛ z 1604 ⊝ z 541
    ⊛ z 1694 ⊝ z 916 ⊛ z 1478),
(1848, z 1 ⊛ z 3 ⊛ z 1534 ⊝ z 1 ⊛ z 4 ⊛ q4p ⊝ z 2 ⊛ z 3 ⊛ q3p),
(1849, z 1 ⊛ z 4 ⊛ z 1534 ⊹ z 1 ⊛ z 3 ⊛ q4p ⊝ z 2 ⊛ z 4 ⊛ q3p),
(1850, neg (z 3) ⊛ z 1848 ⊝ z 4 ⊛ z 1849),
(1851, z 2 ⊛ z 4 ⊛ q4p ⊝ z 2 ⊛ z 3 ⊛ z 1534 ⊝ z 1 ⊛ z 3 ⊛ q3p),
(1852, neg (z 2) ⊛ z 4 ⊛ z 1534 ⊝ z 1 ⊛ z 4 ⊛ q3p ⊝ z 2 ⊛ z 3 ⊛ q4p),
(1853, z 3 ⊛ z 1851 ⊹ z 4 ⊛ z 1852),
(1854, (z 5 ⊛ z 8 ⊹ z 6 ⊛ z 7) ⊛ z 1574),
(1855, (z 5 ⊛ z 7 ⊝ z 6 ⊛ z 8) ⊛ z 1574),
(1856, rr ⊛ (z 60 ⊛ z 1854 ⊝ z 54 ⊛ z 1742 ⊝ z 55 ⊛ z 1746 ⊝ z 63 ⊛ z 1855)),
(1857, rr ⊛ (z 62 ⊛ z 1854 ⊹ z 65 ⊛ z 1855)),
(1858, rr ⊛ (z 64 ⊛ z 1855 ⊝ z 61 ⊛ z 1854 ⊝ z 43 ⊛ z 54 ⊛ z 1743 ⊝ z 43 ⊛ z 55 ⊛ z 1747)),
(1859, z 3 ⊛ u4 ⊛ z 1856 ⊹ u1 ⊛ z 1850 ⊹ u2 ⊛ z 1853 ⊹ z 1060 ⊛ z 556 ⊹ z 1479 ⊛ z 559 ⊹ z 1574 ⊛
    z 565 ⊝ z 3 ⊛ u3 ⊛ z 1858 ⊝ z 3 ⊛ u5 ⊛ z 1857 ⊝ z 1534 ⊛ z 563),
(1860, z 1 ⊛ z 5 ⊛ z 1574 ⊹ z 1 ⊛ z 31 ⊛ z 1534 ⊹ z 1 ⊛ z 269 ⊝ z 2 ⊛ z 6 ⊛ z 1534 ⊝ z 2 ⊛ z 4 ⊛ z
    6 ⊛ z 1574 ⊝ z 1 ⊛ z 6 ⊛ q3p ⊝ z 2 ⊛ z 5 ⊛ q5p ⊝ z 2 ⊛ z 31 ⊛ q3p),
(1861, z 2 ⊛ z 6 ⊛ q5p ⊹ z 2 ⊛ z 41 ⊛ q3p ⊝ z 1 ⊛ z 6 ⊛ z 1574 ⊝ z 1 ⊛ z 41 ⊛ z 1534 ⊝ z 2 ⊛ z 5 ⊛
    z 1534 ⊝ z 2 ⊛ z 4 ⊛ z 5 ⊛ z 1574 ⊝ z 1 ⊛ z 5 ⊛ q3p ⊝ z 1 ⊛ z 273),
(1862, z 9 ⊛ z 1861 ⊝ z 10 ⊛ z 1050 ⊛ q7p ⊝ z 1 ⊛ z 3 ⊛ z 9 ⊛ q7p ⊝ z 10 ⊛ z 1848),
(1863, z 1 ⊛ z 3 ⊛ z 10 ⊛ q7p ⊝ z 9 ⊛ z 1050 ⊛ q7p ⊝ z 9 ⊛ z 1848 ⊝ z 10 ⊛ z 1861),
(1864, z 5 ⊛ z 122 ⊛ z 1574 ⊹ z 6 ⊛ z 10 ⊛ z 238 ⊛ z 1574 ⊹ z 5 ⊛ z 1049 ⊛ q5p ⊹ z 6 ⊛ z 1860 ⊹ z
    23 ⊛ z 1862 ⊹ z 1051 ⊛ z 305 ⊝ z 6 ⊛ z 9 ⊛ z 233 ⊛ z 1574 ⊝ z 25 ⊛ z 1863 ⊝ z 1052 ⊛ z 296),
(1865, z 1 ⊛ z 6 ⊛ z 1534 ⊹ z 2 ⊛ z 5 ⊛ z 1574 ⊹ z 2 ⊛ z 31 ⊛ z 1534 ⊹ z 1 ⊛ z 4 ⊛ z 6 ⊛ z 1574 ⊹
    z 1 ⊛ z 5 ⊛ q5p ⊹ z 1 ⊛ z 31 ⊛ q3p ⊹ z 2 ⊛ z 269 ⊝ z 2 ⊛ z 6 ⊛ q3p),
(1866, z 1 ⊛ z 5 ⊛ z 1534 ⊹ z 1 ⊛ z 4 ⊛ z 5 ⊛ z 1574 ⊝ z 2 ⊛ z 6 ⊛ z 1574 ⊝ z 2 ⊛ z 41 ⊛ z 1534 ⊝
    z 1 ⊛ z 6 ⊛ q5p ⊝ z 1 ⊛ z 41 ⊛ q3p ⊝ z 2 ⊛ z 5 ⊛ q3p ⊝ z 2 ⊛ z 273),
(1867, z 9 ⊛ z 1866 ⊹ z 10 ⊛ z 1851 ⊝ z 10 ⊛ z 120 ⊛ q7p ⊝ z 2 ⊛ z 3 ⊛ z 9 ⊛ q7p),
(1868, z 2 ⊛ z 3 ⊛ z 10 ⊛ q7p ⊹ z 9 ⊛ z 1851 ⊝ z 9 ⊛ z 120 ⊛ q7p ⊝ z 10 ⊛ z 1866),
(1869, z 5 ⊛ z 125 ⊛ z 1574 ⊹ z 6 ⊛ z 10 ⊛ z 239 ⊛ z 1574 ⊹ z 5 ⊛ z 122 ⊛ q5p ⊹ z 6 ⊛ z 1865 ⊹ z
    23 ⊛ z 1867 ⊹ z 1034 ⊛ z 305 ⊝ z 6 ⊛ z 9 ⊛ z 234 ⊛ z 1574 ⊝ z 25 ⊛ z 1868 ⊝ z 1035 ⊛ z 296),
(1870, z 6 ⊛ z 1750 ⊝ z 5 ⊛ z 29 ⊛ z 1574 ⊝ z 4 ⊛ z 6 ⊛ z 25 ⊛ z 1574 ⊝ z 6 ⊛ z 10 ⊛ z 31 ⊛ z
    1574),
(1871, z 25 ⊛ z 1757 ⊝ z 23 ⊛ z 1750 ⊝ z 6 ⊛ z 9 ⊛ z 29 ⊛ z 1574 ⊝ z 6 ⊛ z 10 ⊛ z 27 ⊛ z 1574),
(1872, n 2 ⊛ z 33 ⊛ z 1870 ⊹ n 2 ⊛ z 34 ⊛ z 1871),
(1873, (n 2 ⊛ z 36 ⊛ z 1870 ⊝ z 33 ⊛ z 1872 ⊘ hpow (z 35) 1) ⊘ pow (z 36) 2),
(1874, z 39 ⊛ z 43 ⊛ z 1751 ⊹ qt 2 ⊛ rf ⊛ z 82 ⊛ z 1873),
(1875, neg (z 1874) ⊝ d3 ⊛ z 43 ⊛ z 1751 ⊝ z 5 ⊛ z 118 ⊛ z 1574),
(1876, d1 ⊛ z 3 ⊛ z 6 ⊛ z 43 ⊛ z 1574),
(1877, d2 ⊛ z 43 ⊛ z 1751 ⊹ z 6 ⊛ z 9 ⊛ z 118 ⊛ z 1574 ⊝ z 10 ⊛ z 1876),
(1878, (n 2 ⊛ z 36 ⊛ z 1871 ⊝ z 34 ⊛ z 1872 ⊘ hpow (z 35) 1) ⊘ pow (z 36) 2),
(1879, z 40 ⊛ z 43 ⊛ z 1751 ⊹ qt 2 ⊛ rf ⊛ z 82 ⊛ z 1878),
(1880, z 43 ⊛ (d2 ⊛ z 1756 ⊝ d3 ⊛ z 3 ⊛ z 6 ⊛ z 1574)),
(1881, z 1880 ⊝ z 9 ⊛ z 1876 ⊝ z 6 ⊛ z 10 ⊛ z 118 ⊛ z 1574)]

/-- _mooreriderlean2012.py:2943-3059 -/
def part21 : List (ℕ × E) := [
(1882, z 11 ⊛ z 39 ⊛ z 43 ⊛ z 1790 ⊹ z 12 ⊛ z 40 ⊛ z 90 ⊛ z 1607 ⊹ qt 2 ⊛ rf ⊛ z 11 ⊛ z 94 ⊛ z
    1873 ⊝ z 11 ⊛ z 39 ⊛ z 90 ⊛ z 1607 ⊝ z 11 ⊛ z 40 ⊛ z 43 ⊛ z 1783 ⊝ z 11 ⊛ z 40 ⊛ z 94 ⊛ z 1607
    ⊝ z 12 ⊛ z 39 ⊛ z 43 ⊛ z 1783 ⊝ z 12 ⊛ z 39 ⊛ z 94 ⊛ z 1607 ⊝ z 12 ⊛ z 40 ⊛ z 43 ⊛ z 1790 ⊝ qt
    2 ⊛ rf ⊛ z 11 ⊛ z 90 ⊛ z 1878 ⊝ qt 2 ⊛ rf ⊛ z 12 ⊛ z 90 ⊛ z 1873 ⊝ qt 2 ⊛ rf ⊛ z 12 ⊛ z 94 ⊛ z
    1878),
(1883, z 6 ⊛ z 1875 ⊹ z 5 ⊛ z 262 ⊛ z 1574 ⊹ z 6 ⊛ z 10 ⊛ z 259 ⊛ z 1574 ⊹ z 23 ⊛ (z 1877 ⊹ z
    1879) ⊝ z 6 ⊛ z 9 ⊛ z 257 ⊛ z 1574 ⊝ z 25 ⊛ (z 1881 ⊹ z 1882)),
(1884, d2 ⊛ z 1771 ⊹ d1 ⊛ z 10 ⊛ z 1727),
(1885, z 40 ⊛ z 1771 ⊹ qt 2 ⊛ rf ⊛ z 77 ⊛ z 1878),
(1886, neg d1 ⊛ z 1733 ⊝ d3 ⊛ z 1771),
(1887, z 39 ⊛ z 1771 ⊹ qt 2 ⊛ rf ⊛ z 77 ⊛ z 1873),
(1888, d3 ⊛ z 1760 ⊝ d2 ⊛ z 1752),
(1889, z 1888 ⊹ d1 ⊛ z 9 ⊛ z 1727),
(1890, z 11 ⊛ z 39 ⊛ z 1787 ⊹ z 12 ⊛ z 40 ⊛ z 92 ⊛ z 1607 ⊹ qt 2 ⊛ rf ⊛ z 11 ⊛ z 97 ⊛ z 1873 ⊝ z
    11 ⊛ z 40 ⊛ z 1780 ⊝ z 12 ⊛ z 39 ⊛ z 1780 ⊝ z 12 ⊛ z 40 ⊛ z 1787 ⊝ z 11 ⊛ z 39 ⊛ z 92 ⊛ z 1607
    ⊝ z 11 ⊛ z 40 ⊛ z 97 ⊛ z 1607 ⊝ z 12 ⊛ z 39 ⊛ z 97 ⊛ z 1607 ⊝ qt 2 ⊛ rf ⊛ z 11 ⊛ z 92 ⊛ z 1878
    ⊝ qt 2 ⊛ rf ⊛ z 12 ⊛ z 92 ⊛ z 1873 ⊝ qt 2 ⊛ rf ⊛ z 12 ⊛ z 97 ⊛ z 1878),
(1891, z 5 ⊛ z 263 ⊛ z 1574 ⊹ z 6 ⊛ z 10 ⊛ z 261 ⊛ z 1574 ⊹ z 23 ⊛ (z 1884 ⊹ z 1885) ⊹ z 6 ⊛ (z
    1886 ⊝ z 1887) ⊝ z 6 ⊛ z 9 ⊛ z 256 ⊛ z 1574 ⊝ z 25 ⊛ (z 1889 ⊹ z 1890)),
(1892, z 40 ⊛ z 1772 ⊹ qt 2 ⊛ rf ⊛ z 76 ⊛ z 1878),
(1893, n 2 ⊛ d1 ⊛ z 1734 ⊝ d3 ⊛ z 1772),
(1894, z 39 ⊛ z 1772 ⊹ qt 2 ⊛ rf ⊛ z 76 ⊛ z 1873),
(1895, d3 ⊛ z 1763 ⊝ d2 ⊛ z 1755),
(1896, z 11 ⊛ z 39 ⊛ z 1788 ⊹ z 12 ⊛ z 40 ⊛ z 91 ⊛ z 1607 ⊹ qt 2 ⊛ rf ⊛ z 11 ⊛ z 95 ⊛ z 1873 ⊝ z
    11 ⊛ z 40 ⊛ z 1781 ⊝ z 12 ⊛ z 39 ⊛ z 1781 ⊝ z 12 ⊛ z 40 ⊛ z 1788 ⊝ z 11 ⊛ z 39 ⊛ z 91 ⊛ z 1607
    ⊝ z 11 ⊛ z 40 ⊛ z 95 ⊛ z 1607 ⊝ z 12 ⊛ z 39 ⊛ z 95 ⊛ z 1607 ⊝ qt 2 ⊛ rf ⊛ z 11 ⊛ z 91 ⊛ z 1878
    ⊝ qt 2 ⊛ rf ⊛ z 12 ⊛ z 91 ⊛ z 1873 ⊝ qt 2 ⊛ rf ⊛ z 12 ⊛ z 95 ⊛ z 1878),
(1897, z 5 ⊛ z 264 ⊛ z 1574 ⊹ z 6 ⊛ z 10 ⊛ z 260 ⊛ z 1574 ⊹ z 6 ⊛ (z 1893 ⊝ z 1894) ⊹ z 23 ⊛ (z
    1892 ⊹ d2 ⊛ z 1772) ⊝ z 6 ⊛ z 9 ⊛ z 255 ⊛ z 1574 ⊝ z 25 ⊛ (z 1895 ⊹ z 1896)),
(1898, qt 2 ⊛ rf ⊛ z 23 ⊛ z 83 ⊛ z 1878 ⊝ z 5 ⊛ z 250 ⊛ z 1574 ⊝ z 6 ⊛ z 9 ⊛ z 254 ⊛ z 1574 ⊝ qt 2
    ⊛ rf ⊛ z 6 ⊛ z 83 ⊛ z 1873),
(1899, d3 ⊛ z 1764 ⊝ d2 ⊛ z 1758),
(1900, z 11 ⊛ z 39 ⊛ z 1789 ⊹ z 12 ⊛ z 40 ⊛ z 93 ⊛ z 1607 ⊹ qt 2 ⊛ rf ⊛ z 11 ⊛ z 96 ⊛ z 1873 ⊝ z
    11 ⊛ z 40 ⊛ z 1782 ⊝ z 12 ⊛ z 39 ⊛ z 1782 ⊝ z 12 ⊛ z 40 ⊛ z 1789 ⊝ z 11 ⊛ z 39 ⊛ z 93 ⊛ z 1607
    ⊝ z 11 ⊛ z 40 ⊛ z 96 ⊛ z 1607 ⊝ z 12 ⊛ z 39 ⊛ z 96 ⊛ z 1607 ⊝ qt 2 ⊛ rf ⊛ z 11 ⊛ z 93 ⊛ z 1878
    ⊝ qt 2 ⊛ rf ⊛ z 12 ⊛ z 93 ⊛ z 1873 ⊝ qt 2 ⊛ rf ⊛ z 12 ⊛ z 96 ⊛ z 1878),
(1901, z 25 ⊛ (z 1899 ⊹ z 1900) ⊝ z 6 ⊛ z 10 ⊛ z 258 ⊛ z 1574),
(1902, u3 ⊛ z 1883 ⊹ u4 ⊛ z 1891 ⊹ u5 ⊛ z 1897 ⊹ u8 ⊛ z 1898 ⊹ u1 ⊛ z 1864 ⊹ u2 ⊛ z 1869 ⊹ z 1060
    ⊛ z 573 ⊹ z 1479 ⊛ z 578 ⊹ z 1534 ⊛ z 616 ⊹ z 1574 ⊛ z 594 ⊹ z 1607 ⊛ z 586 ⊝ u7 ⊛ z 1901),
(1903, rr ⊛ u4 ⊛ z 1733 ⊹ z 1 ⊛ u2 ⊛ z 1534 ⊹ z 1 ⊛ z 1479 ⊛ q3p ⊹ z 1534 ⊛ z 552 ⊹ rr ⊛ z 1574 ⊛
    z 275 ⊝ n 2 ⊛ rr ⊛ u5 ⊛ z 1734 ⊝ z 2 ⊛ u1 ⊛ z 1534 ⊝ z 1 ⊛ u1 ⊛ q3p ⊝ z 2 ⊛ u2 ⊛ q3p ⊝ z 2 ⊛ z
    1060 ⊛ q3p),
(1904, z 25 ⊛ z 1870 ⊝ z 6 ⊛ z 10 ⊛ z 33 ⊛ z 1574),
(1905, (n 2 ⊛ z 35 ⊛ z 1904 ⊝ z 416 ⊛ z 1872) ⊘ hpow (z 35) 3),
(1906, ((z 25 ⊛ z 36 ⊝ n 2 ⊛ z 33 ⊛ z 420) ⊛ z 1872 ⊘ hpow (z 35) 1 ⊹ z 36 ⊛ (z 33 ⊛ z 1905 ⊹ n 2
    ⊛ z 420 ⊛ z 1870 ⊹ n 2 ⊛ z 6 ⊛ z 10 ⊛ z 36 ⊛ z 1574)) ⊘ pow (z 36) 3),
(1907, (z 34 ⊛ z 36 ⊛ z 1905 ⊹ n 2 ⊛ z 36 ⊛ z 420 ⊛ z 1871 ⊝ n 2 ⊛ z 34 ⊛ z 420 ⊛ z 1872 ⊘ hpow (z
    35) 1) ⊘ pow (z 36) 3),
(1908, z 3 ⊛ z 6 ⊛ z 434 ⊛ z 1574 ⊝ z 443 ⊛ z 1756 ⊝ qt 2 ⊛ rf ⊛ z 28 ⊛ z 1906 ⊝ qt 2 ⊛ rf ⊛ z 32
    ⊛ z 1907),
(1909, z 25 ⊛ z 1871 ⊝ z 6 ⊛ z 10 ⊛ z 34 ⊛ z 1574),
(1910, (n 2 ⊛ z 35 ⊛ z 1909 ⊝ z 412 ⊛ z 1872) ⊘ hpow (z 35) 3),
(1911, (z 33 ⊛ z 36 ⊛ z 1910 ⊹ n 2 ⊛ z 36 ⊛ z 418 ⊛ z 1870 ⊝ n 2 ⊛ z 33 ⊛ z 418 ⊛ z 1872 ⊘ hpow (z
    35) 1) ⊘ pow (z 36) 3),
(1912, ((z 25 ⊛ z 36 ⊝ n 2 ⊛ z 34 ⊛ z 418) ⊛ z 1872 ⊘ hpow (z 35) 1 ⊹ z 36 ⊛ (z 34 ⊛ z 1910 ⊹ n 2
    ⊛ z 418 ⊛ z 1871 ⊹ n 2 ⊛ z 6 ⊛ z 10 ⊛ z 36 ⊛ z 1574)) ⊘ pow (z 36) 3),
(1913, z 444 ⊛ z 1756 ⊝ qt 2 ⊛ rf ⊛ z 28 ⊛ z 1911 ⊝ qt 2 ⊛ rf ⊛ z 32 ⊛ z 1912 ⊝ z 3 ⊛ z 6 ⊛ z 432
    ⊛ z 1574),
(1914, n 2 ⊛ z 23 ⊛ z 1871 ⊝ n 2 ⊛ z 6 ⊛ z 1870 ⊝ n 2 ⊛ z 5 ⊛ z 33 ⊛ z 1574 ⊝ n 2 ⊛ z 6 ⊛ z 9 ⊛ z
    34 ⊛ z 1574),
(1915, (n 2 ⊛ z 35 ⊛ z 1914 ⊝ z 411 ⊛ z 1872) ⊘ hpow (z 35) 3),
(1916, (n 2 ⊛ z 33 ⊛ z 421 ⊛ z 1872 ⊘ hpow (z 35) 1 ⊝ z 36 ⊛ (z 33 ⊛ z 1915 ⊹ n 2 ⊛ z 421 ⊛ z 1870
    ⊹ n 4 ⊛ z 5 ⊛ z 36 ⊛ z 1574 ⊝ n 2 ⊛ z 6 ⊛ z 1872 ⊘ hpow (z 35) 1)) ⊘ pow (z 36) 3),
(1917, (n 2 ⊛ (z 23 ⊛ z 36 ⊝ z 34 ⊛ z 421) ⊛ z 1872 ⊘ hpow (z 35) 1 ⊹ z 36 ⊛ (z 34 ⊛ z 1915 ⊹ n 2
    ⊛ z 421 ⊛ z 1871 ⊹ n 4 ⊛ z 6 ⊛ z 9 ⊛ z 36 ⊛ z 1574)) ⊘ pow (z 36) 3),
(1918, qt 2 ⊛ z 446 ⊛ z 1756 ⊹ qt 1 ⊛ rf ⊛ z 28 ⊛ z 1916 ⊝ qt 1 ⊛ rf ⊛ z 32 ⊛ z 1917 ⊝ qt 2 ⊛ z 3
    ⊛ z 6 ⊛ z 430 ⊛ z 1574),
(1919, z 3 ⊛ z 5 ⊛ z 1908 ⊹ d1 ⊛ z 4 ⊛ z 5 ⊛ z 1574 ⊹ z 4 ⊛ z 6 ⊛ z 448 ⊛ z 1574 ⊹ z 3 ⊛ z 5 ⊛ z 9
    ⊛ z 453 ⊛ z 1574 ⊹ z 4 ⊛ z 5 ⊛ z 9 ⊛ z 449 ⊛ z 1574 ⊹ (z 3 ⊛ z 24 ⊝ z 4 ⊛ z 10) ⊛ z 1913 ⊹ qt
    2 ⊛ rf ⊛ (z 3 ⊛ z 10 ⊹ z 4 ⊛ z 24) ⊛ z 1873 ⊝ z 3 ⊛ z 6 ⊛ z 455 ⊛ z 1574 ⊝ qt 2 ⊛ rf ⊛ z 4 ⊛ z
    5 ⊛ z 1878 ⊝ z 3 ⊛ z 5 ⊛ z 10 ⊛ z 451 ⊛ z 1574 ⊝ (z 3 ⊛ z 26 ⊹ z 4 ⊛ z 9) ⊛ z 1918),
(1920, neg (z 5) ⊛ z 1750 ⊝ z 6 ⊛ z 29 ⊛ z 1574),
(1921, z 33 ⊛ z 1920 ⊹ z 410 ⊛ z 1870),
(1922, (n 2 ⊛ z 35 ⊛ z 1921 ⊝ z 415 ⊛ z 1872) ⊘ hpow (z 35) 3),
(1923, (z 34 ⊛ z 36 ⊛ z 1922 ⊹ n 2 ⊛ z 36 ⊛ z 417 ⊛ z 1871 ⊝ n 2 ⊛ z 34 ⊛ z 417 ⊛ z 1872 ⊘ hpow (z
    35) 1) ⊘ pow (z 36) 3),
(1924, (n 2 ⊛ z 33 ⊛ z 417 ⊛ z 1872 ⊘ hpow (z 35) 1 ⊹ z 36 ⊛ (n 2 ⊛ z 36 ⊛ z 1920 ⊝ n 2 ⊛ z 417 ⊛
    z 1870 ⊝ z 33 ⊛ z 1922 ⊝ z 410 ⊛ z 1872 ⊘ hpow (z 35) 1)) ⊘ pow (z 36) 3),
(1925, qt 2 ⊛ rf ⊛ z 32 ⊛ z 1923 ⊝ z 441 ⊛ z 1756 ⊝ qt 2 ⊛ rf ⊛ z 28 ⊛ z 1924 ⊝ z 3 ⊛ z 6 ⊛ z 429
    ⊛ z 1574),
(1926, z 29 ⊛ z 1871 ⊝ z 34 ⊛ z 1750),
(1927, (n 2 ⊛ z 35 ⊛ z 1926 ⊝ z 414 ⊛ z 1872) ⊘ hpow (z 35) 3),
(1928, (z 33 ⊛ z 36 ⊛ z 1927 ⊹ n 2 ⊛ z 36 ⊛ z 419 ⊛ z 1870 ⊝ n 2 ⊛ z 33 ⊛ z 419 ⊛ z 1872 ⊘ hpow (z
    35) 1) ⊘ pow (z 36) 3),
(1929, ((z 29 ⊛ z 36 ⊝ n 2 ⊛ z 34 ⊛ z 419) ⊛ z 1872 ⊘ hpow (z 35) 1 ⊹ z 36 ⊛ (z 34 ⊛ z 1927 ⊹ n 2
    ⊛ z 36 ⊛ z 1750 ⊹ n 2 ⊛ z 419 ⊛ z 1871)) ⊘ pow (z 36) 3),
(1930, z 445 ⊛ z 1756 ⊝ qt 2 ⊛ rf ⊛ z 28 ⊛ z 1928 ⊝ qt 2 ⊛ rf ⊛ z 32 ⊛ z 1929 ⊝ z 3 ⊛ z 6 ⊛ z 433
    ⊛ z 1574),
(1931, n 2 ⊛ z 27 ⊛ z 1871 ⊹ n 2 ⊛ z 31 ⊛ z 1870 ⊹ n 2 ⊛ z 34 ⊛ z 1757 ⊝ n 2 ⊛ z 4 ⊛ z 6 ⊛ z 33 ⊛
    z 1574),
(1932, (n 2 ⊛ z 35 ⊛ z 1931 ⊝ z 413 ⊛ z 1872) ⊘ hpow (z 35) 3),
(1933, (n 2 ⊛ (z 31 ⊛ z 36 ⊝ z 33 ⊛ z 422) ⊛ z 1872 ⊘ hpow (z 35) 1 ⊹ z 36 ⊛ (z 33 ⊛ z 1932 ⊹ n 2
    ⊛ z 422 ⊛ z 1870 ⊹ n 4 ⊛ z 4 ⊛ z 6 ⊛ z 36 ⊛ z 1574)) ⊘ pow (z 36) 3),
(1934, (n 2 ⊛ (z 27 ⊛ z 36 ⊝ z 34 ⊛ z 422) ⊛ z 1872 ⊘ hpow (z 35) 1 ⊝ z 36 ⊛ (n 4 ⊛ z 36 ⊛ z 1757
    ⊝ n 2 ⊛ z 422 ⊛ z 1871 ⊝ z 34 ⊛ z 1932)) ⊘ pow (z 36) 3),
(1935, neg (qt 2) ⊛ z 442 ⊛ z 1756 ⊝ qt 1 ⊛ rf ⊛ z 28 ⊛ z 1933 ⊝ qt 1 ⊛ rf ⊛ z 32 ⊛ z 1934 ⊝ qt 2
    ⊛ z 3 ⊛ z 6 ⊛ z 431 ⊛ z 1574),
(1936, z 1925 ⊹ d1 ⊛ z 3 ⊛ z 6 ⊛ z 1574 ⊹ z 4 ⊛ z 5 ⊛ z 9 ⊛ z 1913 ⊹ z 3 ⊛ z 6 ⊛ z 9 ⊛ z 449 ⊛ z
    1574 ⊹ z 4 ⊛ z 6 ⊛ z 10 ⊛ z 451 ⊛ z 1574 ⊝ z 4 ⊛ z 6 ⊛ z 1908 ⊝ z 6 ⊛ z 9 ⊛ z 1930 ⊝ z 6 ⊛ z
    10 ⊛ z 1935 ⊝ z 3 ⊛ z 5 ⊛ z 448 ⊛ z 1574 ⊝ z 4 ⊛ z 5 ⊛ z 10 ⊛ z 1918 ⊝ z 4 ⊛ z 5 ⊛ z 455 ⊛ z
    1574 ⊝ z 5 ⊛ z 9 ⊛ z 454 ⊛ z 1574 ⊝ z 5 ⊛ z 10 ⊛ z 452 ⊛ z 1574 ⊝ qt 2 ⊛ rf ⊛ z 3 ⊛ z 6 ⊛ z
    1878 ⊝ z 4 ⊛ z 6 ⊛ z 9 ⊛ z 453 ⊛ z 1574 ⊝ qt 2 ⊛ rf ⊛ z 3 ⊛ z 5 ⊛ z 9 ⊛ z 1873),
(1937, z 5 ⊛ z 9 ⊛ z 1935 ⊹ z 6 ⊛ z 10 ⊛ z 454 ⊛ z 1574 ⊹ z 3 ⊛ z 5 ⊛ z 10 ⊛ z 449 ⊛ z 1574 ⊹ (z 3
    ⊛ z 9 ⊝ z 4 ⊛ z 6 ⊛ z 10) ⊛ z 1913 ⊹ qt 2 ⊛ rf ⊛ (z 4 ⊛ z 9 ⊹ z 3 ⊛ z 6 ⊛ z 10) ⊛ z 1873 ⊝ z 5
    ⊛ z 10 ⊛ z 1930 ⊝ z 6 ⊛ z 9 ⊛ z 452 ⊛ z 1574 ⊝ z 4 ⊛ z 5 ⊛ z 9 ⊛ z 451 ⊛ z 1574 ⊝ z 4 ⊛ z 5 ⊛
    z 10 ⊛ z 453 ⊛ z 1574 ⊝ (z 3 ⊛ z 10 ⊹ z 4 ⊛ z 6 ⊛ z 9) ⊛ z 1918),
(1938, u4 ⊛ z 1919 ⊹ u5 ⊛ z 1936 ⊹ u7 ⊛ z 1937 ⊹ z 1574 ⊛ z 662)]

/-- _mooreriderlean2012.py:3060-3178 -/
def part22 : List (ℕ × E) := [
(1939, z 233 ⊛ z 1757 ⊹ z 4 ⊛ z 6 ⊛ z 122 ⊛ z 1574 ⊹ z 27 ⊛ z 1862 ⊹ z 29 ⊛ z 1863 ⊹ z 1051 ⊛ z
    310 ⊹ z 1052 ⊛ z 300 ⊝ z 238 ⊛ z 1750 ⊝ z 31 ⊛ z 1860 ⊝ z 1049 ⊛ z 269),
(1940, z 234 ⊛ z 1757 ⊹ z 4 ⊛ z 6 ⊛ z 125 ⊛ z 1574 ⊹ z 27 ⊛ z 1867 ⊹ z 29 ⊛ z 1868 ⊹ z 1034 ⊛ z
    310 ⊹ z 1035 ⊛ z 300 ⊝ z 239 ⊛ z 1750 ⊝ z 31 ⊛ z 1865 ⊝ z 122 ⊛ z 269),
(1941, z 257 ⊛ z 1757 ⊹ z 4 ⊛ z 6 ⊛ z 262 ⊛ z 1574 ⊹ z 27 ⊛ (z 1877 ⊹ z 1879) ⊹ z 29 ⊛ (z 1881 ⊹ z
    1882) ⊝ z 31 ⊛ z 1875 ⊝ z 259 ⊛ z 1750),
(1942, z 256 ⊛ z 1757 ⊹ z 4 ⊛ z 6 ⊛ z 263 ⊛ z 1574 ⊹ z 27 ⊛ (z 1884 ⊹ z 1885) ⊹ z 29 ⊛ (z 1889 ⊹ z
    1890) ⊝ z 261 ⊛ z 1750 ⊝ z 31 ⊛ (z 1886 ⊝ z 1887)),
(1943, z 255 ⊛ z 1757 ⊹ z 4 ⊛ z 6 ⊛ z 264 ⊛ z 1574 ⊹ z 29 ⊛ (z 1895 ⊹ z 1896) ⊹ z 27 ⊛ (z 1892 ⊹
    d2 ⊛ z 1772) ⊝ z 260 ⊛ z 1750 ⊝ z 31 ⊛ (z 1893 ⊝ z 1894)),
(1944, z 29 ⊛ (z 1899 ⊹ z 1900) ⊝ z 258 ⊛ z 1750),
(1945, z 254 ⊛ z 1757 ⊹ qt 2 ⊛ rf ⊛ z 27 ⊛ z 83 ⊛ z 1878 ⊹ qt 2 ⊛ rf ⊛ z 31 ⊛ z 83 ⊛ z 1873 ⊝ z 4
    ⊛ z 6 ⊛ z 250 ⊛ z 1574),
(1946, u3 ⊛ z 1941 ⊹ u4 ⊛ z 1942 ⊹ u5 ⊛ z 1943 ⊹ u7 ⊛ z 1944 ⊹ u8 ⊛ z 1945 ⊹ u1 ⊛ z 1939 ⊹ u2 ⊛ z
    1940 ⊹ z 1060 ⊛ z 621 ⊹ z 1479 ⊛ z 622 ⊹ z 1534 ⊛ z 626 ⊹ z 1574 ⊛ z 624 ⊹ z 1607 ⊛ z 623),
(1947, (z 1056 ⊛ (z 525 ⊛ z 568 ⊹ z 478 ⊛ z 496 ⊛ z 620 ⊝ z 511 ⊛ z 553 ⊝ z 535 ⊛ z 664 ⊝ z 478 ⊛
    z 528 ⊛ z 628) ⊝ z 494 ⊛ (z 525 ⊛ z 1859 ⊹ z 1527 ⊛ z 568 ⊹ z 478 ⊛ z 496 ⊛ z 1902 ⊹ z 496 ⊛ z
    1048 ⊛ z 620 ⊝ z 511 ⊛ z 1903 ⊝ z 535 ⊛ z 1938 ⊝ z 1529 ⊛ z 553 ⊝ z 1530 ⊛ z 664 ⊝ z 478 ⊛ z
    528 ⊛ z 1946 ⊝ z 528 ⊛ z 1048 ⊛ z 628)) ⊘ pow (z 494) 2),
(1948, z 538 ⊛ z 1708 ⊹ z 911 ⊛ z 1057 ⊹ z 920 ⊛ z 1531 ⊹ z 928 ⊛ z 1572 ⊹ z 934 ⊛ z 1604 ⊝ z 541
    ⊛ z 1706 ⊝ z 915 ⊛ z 1478),
(1949, (z 494 ⊛ z 536 ⊛ z 1938 ⊹ z 494 ⊛ z 1571 ⊛ z 664 ⊝ z 536 ⊛ z 1056 ⊛ z 664) ⊘ pow (z 494) 2),
(1950, z 923 ⊛ z 1531 ⊹ z 931 ⊛ z 1572 ⊹ z 937 ⊛ z 1604),
(1951, (z 1056 ⊛ (z 526 ⊛ z 568 ⊹ z 532 ⊛ z 628 ⊝ z 512 ⊛ z 553 ⊝ z 527 ⊛ z 620 ⊝ z 537 ⊛ z 664) ⊝
    z 494 ⊛ (z 526 ⊛ z 1859 ⊹ z 532 ⊛ z 1946 ⊹ z 1594 ⊛ z 568 ⊹ z 1595 ⊛ z 628 ⊝ z 512 ⊛ z 1903 ⊝
    z 527 ⊛ z 1902 ⊝ z 537 ⊛ z 1938 ⊝ z 1596 ⊛ z 553 ⊝ z 1597 ⊛ z 620 ⊝ z 1603 ⊛ z 664)) ⊘ pow (z
    494) 2),
(1952, mg ⊛ (z 209 ⊛ z 1687 ⊹ z 212 ⊛ z 1688 ⊹ z 215 ⊛ z 1689) ⊹ mc ⊛ (z 134 ⊛ z 1050 ⊝ z 131 ⊛ z
    1049 ⊝ z 1 ⊛ z 3 ⊛ z 139) ⊹ me ⊛ (z 9 ⊛ z 165 ⊛ z 1050 ⊝ z 140 ⊛ z 1049 ⊝ z 168 ⊛ z 1049 ⊝ z 1
    ⊛ z 3 ⊛ z 147 ⊝ z 10 ⊛ z 162 ⊛ z 1050 ⊝ z 1 ⊛ z 3 ⊛ z 9 ⊛ z 162 ⊝ z 1 ⊛ z 3 ⊛ z 10 ⊛ z 165) ⊹
    mf ⊛ (z 9 ⊛ z 153 ⊛ z 1050 ⊝ z 140 ⊛ z 1049 ⊝ z 156 ⊛ z 1049 ⊝ z 1 ⊛ z 3 ⊛ z 147 ⊝ z 10 ⊛ z
    151 ⊛ z 1050 ⊝ z 1 ⊛ z 3 ⊛ z 9 ⊛ z 151 ⊝ z 1 ⊛ z 3 ⊛ z 10 ⊛ z 153) ⊝ md ⊛ z 1 ⊛ z 3 ⊛ z 119),
(1953, z 1952 ⊹ z 538 ⊛ z 1696 ⊹ z 544 ⊛ z 1697 ⊹ z 547 ⊛ z 1708 ⊹ z 909 ⊛ z 1057 ⊹ z 911 ⊛ z 1572
    ⊹ z 912 ⊛ z 1531 ⊝ z 541 ⊛ z 1693 ⊝ z 910 ⊛ z 1478),
(1954, (z 1056 ⊛ (z 519 ⊛ z 568 ⊹ z 487 ⊛ z 496 ⊛ z 620 ⊝ z 504 ⊛ z 553 ⊝ z 533 ⊛ z 664 ⊝ z 487 ⊛
    z 528 ⊛ z 628) ⊝ z 494 ⊛ (z 519 ⊛ z 1859 ⊹ z 1039 ⊛ z 568 ⊹ z 487 ⊛ z 496 ⊛ z 1902 ⊹ z 496 ⊛ z
    1040 ⊛ z 620 ⊝ z 504 ⊛ z 1903 ⊝ z 533 ⊛ z 1938 ⊝ z 1043 ⊛ z 553 ⊝ z 1046 ⊛ z 664 ⊝ z 487 ⊛ z
    528 ⊛ z 1946 ⊝ z 528 ⊛ z 1040 ⊛ z 628)) ⊘ pow (z 494) 2),
(1955, mg ⊛ (z 182 ⊛ z 209 ⊹ z 212 ⊛ z 1684 ⊹ z 215 ⊛ z 1685) ⊹ mc ⊛ (z 120 ⊛ z 134 ⊝ z 122 ⊛ z
    131 ⊝ z 2 ⊛ z 3 ⊛ z 139) ⊹ me ⊛ (z 9 ⊛ z 120 ⊛ z 165 ⊝ z 122 ⊛ z 140 ⊝ z 122 ⊛ z 168 ⊝ z 2 ⊛ z
    3 ⊛ z 147 ⊝ z 10 ⊛ z 120 ⊛ z 162 ⊝ z 2 ⊛ z 3 ⊛ z 9 ⊛ z 162 ⊝ z 2 ⊛ z 3 ⊛ z 10 ⊛ z 165) ⊹ mf ⊛
    (z 9 ⊛ z 120 ⊛ z 153 ⊝ z 122 ⊛ z 140 ⊝ z 122 ⊛ z 156 ⊝ z 2 ⊛ z 3 ⊛ z 147 ⊝ z 10 ⊛ z 120 ⊛ z
    151 ⊝ z 2 ⊛ z 3 ⊛ z 9 ⊛ z 151 ⊝ z 2 ⊛ z 3 ⊛ z 10 ⊛ z 153) ⊝ md ⊛ z 2 ⊛ z 3 ⊛ z 119),
(1956, z 1955 ⊹ z 538 ⊛ z 1693 ⊹ z 544 ⊛ z 1694 ⊹ z 547 ⊛ z 1706 ⊹ z 910 ⊛ z 1057 ⊹ z 915 ⊛ z 1572
    ⊹ z 916 ⊛ z 1531 ⊝ z 541 ⊛ z 1692 ⊝ z 914 ⊛ z 1478),
(1957, (z 1056 ⊛ (z 523 ⊛ z 568 ⊹ z 482 ⊛ z 496 ⊛ z 620 ⊝ z 509 ⊛ z 553 ⊝ z 534 ⊛ z 664 ⊝ z 482 ⊛
    z 528 ⊛ z 628) ⊝ z 494 ⊛ (z 523 ⊛ z 1859 ⊹ z 1477 ⊛ z 568 ⊹ z 482 ⊛ z 496 ⊛ z 1902 ⊹ z 496 ⊛ z
    1047 ⊛ z 620 ⊝ z 509 ⊛ z 1903 ⊝ z 534 ⊛ z 1938 ⊝ z 1471 ⊛ z 553 ⊝ z 1474 ⊛ z 664 ⊝ z 482 ⊛ z
    528 ⊛ z 1946 ⊝ z 528 ⊛ z 1047 ⊛ z 628)) ⊘ pow (z 494) 2),
(1958, z 1846 ⊹ z 941 ⊛ z 1949 ⊹ z 947 ⊛ z 1957 ⊹ z 1847 ⊛ z 667 ⊹ z 1948 ⊛ z 668 ⊹ z 1950 ⊛ z 669
    ⊹ z 1953 ⊛ z 665 ⊝ z 940 ⊛ z 1947 ⊝ z 944 ⊛ z 1951 ⊝ z 946 ⊛ z 1954 ⊝ z 1956 ⊛ z 666),
(1959, z 52 ⊛ z 1531 ⊹ z 78 ⊛ z 1572),
(1960, z 48 ⊛ z 1572 ⊹ z 52 ⊛ z 1531),
(1961, z 182 ⊛ z 1057 ⊹ z 210 ⊛ z 1572 ⊹ z 211 ⊛ z 1531 ⊹ z 538 ⊛ z 1687 ⊝ z 182 ⊛ z 541 ⊝ z 183 ⊛
    z 1478),
(1962, z 187 ⊛ z 1057 ⊹ z 213 ⊛ z 1572 ⊹ z 214 ⊛ z 1531 ⊹ z 538 ⊛ z 1688 ⊝ z 188 ⊛ z 1478 ⊝ z 541
    ⊛ z 1684),
(1963, z 192 ⊛ z 1057 ⊹ z 216 ⊛ z 1572 ⊹ z 217 ⊛ z 1531 ⊹ z 538 ⊛ z 1689 ⊝ z 193 ⊛ z 1478 ⊝ z 541
    ⊛ z 1685),
(1964, z 128 ⊛ z 1572 ⊹ z 130 ⊛ z 1531 ⊹ z 2 ⊛ z 3 ⊛ z 541 ⊝ z 121 ⊛ z 1057 ⊝ z 124 ⊛ z 1478 ⊝ z 1
    ⊛ z 3 ⊛ z 538),
(1965, z 122 ⊛ z 1057 ⊹ z 138 ⊛ z 1531 ⊹ z 538 ⊛ z 1049 ⊝ z 122 ⊛ z 541 ⊝ z 125 ⊛ z 1478 ⊝ z 132 ⊛
    z 1572),
(1966, z 120 ⊛ z 1057 ⊹ z 135 ⊛ z 1572 ⊹ z 137 ⊛ z 1531 ⊹ z 538 ⊛ z 1050 ⊝ z 120 ⊛ z 541 ⊝ z 123 ⊛
    z 1478),
(1967, z 110 ⊛ z 1531 ⊹ z 111 ⊛ z 1572),
(1968, z 120 ⊛ z 1057 ⊹ z 538 ⊛ z 1050 ⊝ z 120 ⊛ z 541 ⊝ z 123 ⊛ z 1478 ⊝ z 126 ⊛ z 1531),
(1969, z 143 ⊛ z 1572 ⊹ z 145 ⊛ z 1531 ⊹ z 2 ⊛ z 3 ⊛ z 541 ⊝ z 121 ⊛ z 1057 ⊝ z 124 ⊛ z 1478 ⊝ z 1
    ⊛ z 3 ⊛ z 538),
(1970, z 122 ⊛ z 1057 ⊹ z 146 ⊛ z 1531 ⊹ z 538 ⊛ z 1049 ⊝ z 122 ⊛ z 541 ⊝ z 125 ⊛ z 1478 ⊝ z 141 ⊛
    z 1572),
(1971, neg (z 167) ⊛ z 1572 ⊝ z 169 ⊛ z 1531),
(1972, z 164 ⊛ z 1572 ⊹ z 166 ⊛ z 1531),
(1973, z 159 ⊛ z 1531 ⊹ z 160 ⊛ z 1572),
(1974, neg (z 155) ⊛ z 1572 ⊝ z 157 ⊛ z 1531),
(1975, z 152 ⊛ z 1572 ⊹ z 154 ⊛ z 1531),
(1976, z 148 ⊛ z 1531 ⊹ z 149 ⊛ z 1572),
(1977, T7 ⊛ z 1959 ⊹ T4 ⊛ z 6 ⊛ z 1960 ⊹ z 406 ⊛ (z 106 ⊛ z 1961 ⊹ z 107 ⊛ z 1962 ⊹ z 108 ⊛ z
    1963) ⊹ z 402 ⊛ (z 4 ⊛ z 1964 ⊹ z 32 ⊛ z 1965 ⊝ z 42 ⊛ z 1966) ⊹ z 1967 ⊛ z 408 ⊹ z 14 ⊛ z
    1960 ⊛ z 409 ⊝ T7 ⊛ z 1960 ⊝ T4 ⊛ z 5 ⊛ z 50 ⊛ z 1531 ⊝ z 404 ⊛ (z 42 ⊛ z 1968 ⊝ z 4 ⊛ z 1969
    ⊝ z 32 ⊛ z 1970 ⊝ z 32 ⊛ z 1971 ⊝ z 733 ⊛ z 1972 ⊝ z 734 ⊛ z 1973) ⊝ z 405 ⊛ (z 42 ⊛ z 1968 ⊝
    z 4 ⊛ z 1969 ⊝ z 32 ⊛ z 1970 ⊝ z 32 ⊛ z 1974 ⊝ z 733 ⊛ z 1975 ⊝ z 734 ⊛ z 1976) ⊝ z 13 ⊛ z 50
    ⊛ z 1531 ⊛ z 409),
(1978, z 921 ⊛ z 1531 ⊹ z 929 ⊛ z 1572),
(1979, z 1978 ⊹ z 542 ⊛ z 1956 ⊹ z 947 ⊛ z 1472 ⊝ z 539 ⊛ z 1953 ⊝ z 545 ⊛ z 1847 ⊝ z 550 ⊛ z 1950
    ⊝ z 940 ⊛ z 1532 ⊝ z 944 ⊛ z 1606 ⊝ z 946 ⊛ z 1058),
(1980, z 906 ⊛ z 1057 ⊹ z 924 ⊛ z 1531 ⊹ z 932 ⊛ z 1572 ⊝ z 538 ⊛ z 1690 ⊝ z 541 ⊛ z 1686 ⊝ z 907
    ⊛ z 1478),
(1981, z 950 ⊛ z 1703 ⊹ z 960 ⊛ z 1979 ⊝ z 945 ⊛ z 1701 ⊝ z 964 ⊛ z 1980),
(1982, z 541 ⊛ z 1705 ⊹ z 922 ⊛ z 1531 ⊹ z 930 ⊛ z 1572 ⊝ z 538 ⊛ z 1709 ⊝ z 899 ⊛ z 1057 ⊝ z 900
    ⊛ z 1478),
(1983, z 1982 ⊹ z 543 ⊛ z 1956 ⊹ z 548 ⊛ z 1948 ⊹ z 551 ⊛ z 1950 ⊹ z 941 ⊛ z 1573 ⊹ z 944 ⊛ z 1605
    ⊹ z 947 ⊛ z 1475 ⊝ z 540 ⊛ z 1953 ⊝ z 546 ⊛ z 1847 ⊝ z 940 ⊛ z 1533 ⊝ z 946 ⊛ z 1059),
(1984, z 950 ⊛ z 1720 ⊹ z 965 ⊛ z 1979 ⊝ z 951 ⊛ z 1701 ⊝ z 964 ⊛ z 1983),
(1985, z 951 ⊛ z 1703 ⊹ z 960 ⊛ z 1983 ⊝ z 945 ⊛ z 1720 ⊝ z 965 ⊛ z 1980),
(1986, z 983 ⊛ z 1981 ⊹ z 997 ⊛ z 1691 ⊝ z 905 ⊛ z 1984 ⊝ z 982 ⊛ z 1985 ⊝ z 999 ⊛ z 1722),
(1987, z 75 ⊛ z 1770 ⊹ z 79 ⊛ z 1779 ⊹ z 93 ⊛ z 1786 ⊹ z 96 ⊛ z 1792 ⊹ ie11 ⊛ z 75 ⊛ z 1759 ⊹ ie31
    ⊛ z 75 ⊛ z 1765 ⊹ ie31 ⊛ z 79 ⊛ z 1759 ⊹ ie33 ⊛ z 79 ⊛ z 1765 ⊹ if11 ⊛ z 93 ⊛ z 1784 ⊹ if11 ⊛
    z 96 ⊛ z 1791 ⊹ me ⊛ z 161 ⊛ (z 1834 ⊹ z 9 ⊛ z 1832 ⊝ z 10 ⊛ z 1831) ⊹ mf ⊛ z 150 ⊛ (z 1838 ⊹
    z 9 ⊛ z 1832 ⊝ z 10 ⊛ z 1831)),
(1988, z 1987 ⊹ z 543 ⊛ z 1845 ⊹ z 548 ⊛ z 1843 ⊹ z 551 ⊛ z 1844 ⊹ z 1475 ⊛ z 917 ⊹ z 1573 ⊛ z 933
    ⊹ z 1605 ⊛ z 938 ⊝ z 540 ⊛ z 1841 ⊝ z 546 ⊛ z 1842 ⊝ z 1059 ⊛ z 913 ⊝ z 1533 ⊛ z 925)]

/-- _mooreriderlean2012.py:3179-3314 -/
def part23 : List (ℕ × E) := [
(1989, z 1988 ⊹ z 967 ⊛ z 1949 ⊹ z 972 ⊛ z 1957 ⊹ z 1710 ⊛ z 665 ⊹ z 1711 ⊛ z 667 ⊹ z 1712 ⊛ z 669
    ⊹ z 1716 ⊛ z 668 ⊝ z 970 ⊛ z 1947 ⊝ z 971 ⊛ z 1954 ⊝ z 975 ⊛ z 1951 ⊝ z 1707 ⊛ z 666),
(1990, z 78 ⊛ z 1573 ⊝ z 52 ⊛ z 1533),
(1991, z 48 ⊛ z 1573 ⊝ z 52 ⊛ z 1533),
(1992, z 182 ⊛ z 543 ⊹ z 183 ⊛ z 1475 ⊹ z 210 ⊛ z 1573 ⊝ z 182 ⊛ z 1059 ⊝ z 211 ⊛ z 1533 ⊝ z 540 ⊛
    z 1687),
(1993, z 188 ⊛ z 1475 ⊹ z 213 ⊛ z 1573 ⊹ z 543 ⊛ z 1684 ⊝ z 187 ⊛ z 1059 ⊝ z 214 ⊛ z 1533 ⊝ z 540
    ⊛ z 1688),
(1994, z 193 ⊛ z 1475 ⊹ z 216 ⊛ z 1573 ⊹ z 543 ⊛ z 1685 ⊝ z 192 ⊛ z 1059 ⊝ z 217 ⊛ z 1533 ⊝ z 540
    ⊛ z 1689),
(1995, z 121 ⊛ z 1059 ⊹ z 124 ⊛ z 1475 ⊹ z 128 ⊛ z 1573 ⊹ z 1 ⊛ z 3 ⊛ z 540 ⊝ z 130 ⊛ z 1533 ⊝ z 2
    ⊛ z 3 ⊛ z 543),
(1996, z 122 ⊛ z 543 ⊹ z 125 ⊛ z 1475 ⊝ z 122 ⊛ z 1059 ⊝ z 132 ⊛ z 1573 ⊝ z 138 ⊛ z 1533 ⊝ z 540 ⊛
    z 1049),
(1997, z 120 ⊛ z 543 ⊹ z 123 ⊛ z 1475 ⊹ z 135 ⊛ z 1573 ⊝ z 120 ⊛ z 1059 ⊝ z 137 ⊛ z 1533 ⊝ z 540 ⊛
    z 1050),
(1998, z 111 ⊛ z 1573 ⊝ z 110 ⊛ z 1533),
(1999, z 120 ⊛ z 543 ⊹ z 123 ⊛ z 1475 ⊹ z 126 ⊛ z 1533 ⊝ z 120 ⊛ z 1059 ⊝ z 540 ⊛ z 1050),
(2000, z 121 ⊛ z 1059 ⊹ z 124 ⊛ z 1475 ⊹ z 143 ⊛ z 1573 ⊹ z 1 ⊛ z 3 ⊛ z 540 ⊝ z 145 ⊛ z 1533 ⊝ z 2
    ⊛ z 3 ⊛ z 543),
(2001, z 122 ⊛ z 543 ⊹ z 125 ⊛ z 1475 ⊝ z 122 ⊛ z 1059 ⊝ z 141 ⊛ z 1573 ⊝ z 146 ⊛ z 1533 ⊝ z 540 ⊛
    z 1049),
(2002, z 169 ⊛ z 1533 ⊝ z 167 ⊛ z 1573),
(2003, z 160 ⊛ z 1573 ⊝ z 159 ⊛ z 1533),
(2004, z 164 ⊛ z 1573 ⊝ z 166 ⊛ z 1533),
(2005, z 157 ⊛ z 1533 ⊝ z 155 ⊛ z 1573),
(2006, z 152 ⊛ z 1573 ⊝ z 154 ⊛ z 1533),
(2007, z 149 ⊛ z 1573 ⊝ z 148 ⊛ z 1533),
(2008, T7 ⊛ z 1990 ⊹ T4 ⊛ z 6 ⊛ z 1991 ⊹ T4 ⊛ z 5 ⊛ z 50 ⊛ z 1533 ⊹ z 406 ⊛ (z 106 ⊛ z 1992 ⊹ z
    107 ⊛ z 1993 ⊹ z 108 ⊛ z 1994) ⊹ z 402 ⊛ (z 4 ⊛ z 1995 ⊹ z 32 ⊛ z 1996 ⊝ z 42 ⊛ z 1997) ⊹ z
    1998 ⊛ z 408 ⊹ z 14 ⊛ z 1991 ⊛ z 409 ⊹ z 13 ⊛ z 50 ⊛ z 1533 ⊛ z 409 ⊝ T7 ⊛ z 1991 ⊝ z 404 ⊛ (z
    42 ⊛ z 1999 ⊝ z 4 ⊛ z 2000 ⊝ z 32 ⊛ z 2001 ⊝ z 32 ⊛ z 2002 ⊝ z 733 ⊛ z 2004 ⊝ z 734 ⊛ z 2003)
    ⊝ z 405 ⊛ (z 42 ⊛ z 1999 ⊝ z 4 ⊛ z 2000 ⊝ z 32 ⊛ z 2001 ⊝ z 32 ⊛ z 2005 ⊝ z 733 ⊛ z 2006 ⊝ z
    734 ⊛ z 2007)),
(2009, z 950 ⊛ z 1702 ⊹ z 973 ⊛ z 1979 ⊝ z 945 ⊛ z 1713 ⊝ z 978 ⊛ z 1980),
(2010, z 950 ⊛ z 1717 ⊹ z 979 ⊛ z 1979 ⊝ z 951 ⊛ z 1713 ⊝ z 978 ⊛ z 1983),
(2011, z 951 ⊛ z 1702 ⊹ z 973 ⊛ z 1983 ⊝ z 945 ⊛ z 1717 ⊝ z 979 ⊛ z 1980),
(2012, z 983 ⊛ z 2009 ⊹ z 1013 ⊛ z 1691 ⊝ z 905 ⊛ z 2010 ⊝ z 982 ⊛ z 2011 ⊝ z 1014 ⊛ z 1722),
(2013, z 53 ⊛ (z 1740 ⊹ id22 ⊛ z 1735)),
(2014, z 2013 ⊹ z 542 ⊛ z 1845 ⊹ z 1472 ⊛ z 917 ⊝ z 539 ⊛ z 1841 ⊝ z 545 ⊛ z 1842 ⊝ z 550 ⊛ z 1844
    ⊝ z 1058 ⊛ z 913 ⊝ z 1532 ⊛ z 925 ⊝ z 1606 ⊛ z 938),
(2015, z 2014 ⊹ z 954 ⊛ z 1949 ⊹ z 958 ⊛ z 1957 ⊹ z 1698 ⊛ z 665 ⊹ z 1699 ⊛ z 667 ⊹ z 1700 ⊛ z 669
    ⊹ z 1719 ⊛ z 668 ⊝ z 955 ⊛ z 1947 ⊝ z 957 ⊛ z 1954 ⊝ z 961 ⊛ z 1951 ⊝ z 1695 ⊛ z 666),
(2016, z 182 ⊛ z 542 ⊹ z 183 ⊛ z 1472 ⊝ z 182 ⊛ z 1058 ⊝ z 211 ⊛ z 1532 ⊝ z 539 ⊛ z 1687),
(2017, z 188 ⊛ z 1472 ⊹ z 542 ⊛ z 1684 ⊝ z 187 ⊛ z 1058 ⊝ z 214 ⊛ z 1532 ⊝ z 539 ⊛ z 1688),
(2018, z 193 ⊛ z 1472 ⊹ z 542 ⊛ z 1685 ⊝ z 192 ⊛ z 1058 ⊝ z 217 ⊛ z 1532 ⊝ z 539 ⊛ z 1689),
(2019, z 121 ⊛ z 1058 ⊹ z 124 ⊛ z 1472 ⊹ z 1 ⊛ z 3 ⊛ z 539 ⊝ z 130 ⊛ z 1532 ⊝ z 2 ⊛ z 3 ⊛ z 542),
(2020, z 122 ⊛ z 542 ⊹ z 125 ⊛ z 1472 ⊝ z 122 ⊛ z 1058 ⊝ z 138 ⊛ z 1532 ⊝ z 539 ⊛ z 1049),
(2021, z 120 ⊛ z 542 ⊹ z 123 ⊛ z 1472 ⊝ z 120 ⊛ z 1058 ⊝ z 137 ⊛ z 1532 ⊝ z 539 ⊛ z 1050),
(2022, z 121 ⊛ z 1058 ⊹ z 124 ⊛ z 1472 ⊹ z 1 ⊛ z 3 ⊛ z 539 ⊝ z 145 ⊛ z 1532 ⊝ z 2 ⊛ z 3 ⊛ z 542),
(2023, z 122 ⊛ z 542 ⊹ z 125 ⊛ z 1472 ⊝ z 122 ⊛ z 1058 ⊝ z 146 ⊛ z 1532 ⊝ z 539 ⊛ z 1049),
(2024, z 120 ⊛ z 542 ⊹ z 123 ⊛ z 1472 ⊹ z 126 ⊛ z 1532 ⊝ z 120 ⊛ z 1058 ⊝ z 539 ⊛ z 1050),
(2025, T4 ⊛ z 5 ⊛ z 50 ⊛ z 1532 ⊹ z 406 ⊛ (z 106 ⊛ z 2016 ⊹ z 107 ⊛ z 2017 ⊹ z 108 ⊛ z 2018) ⊹ z
    402 ⊛ (z 4 ⊛ z 2019 ⊹ z 32 ⊛ z 2020 ⊝ z 42 ⊛ z 2021) ⊹ z 404 ⊛ (z 4 ⊛ z 2022 ⊹ z 32 ⊛ z 2023 ⊹
    z 32 ⊛ z 169 ⊛ z 1532 ⊝ z 42 ⊛ z 2024 ⊝ z 159 ⊛ z 734 ⊛ z 1532 ⊝ z 166 ⊛ z 733 ⊛ z 1532) ⊹ z
    405 ⊛ (z 4 ⊛ z 2022 ⊹ z 32 ⊛ z 2023 ⊹ z 32 ⊛ z 157 ⊛ z 1532 ⊝ z 42 ⊛ z 2024 ⊝ z 148 ⊛ z 734 ⊛
    z 1532 ⊝ z 154 ⊛ z 733 ⊛ z 1532) ⊹ z 13 ⊛ z 50 ⊛ z 1532 ⊛ z 409 ⊝ T4 ⊛ z 6 ⊛ z 52 ⊛ z 1532 ⊝ z
    110 ⊛ z 1532 ⊛ z 408 ⊝ z 14 ⊛ z 52 ⊛ z 1532 ⊛ z 409),
(2026, z 979 ⊛ z 1981 ⊹ z 997 ⊛ z 1717 ⊝ z 973 ⊛ z 1984 ⊝ z 978 ⊛ z 1985 ⊝ z 995 ⊛ z 1702 ⊝ z 999
    ⊛ z 1713),
(2027, z 98 ⊛ z 1803 ⊹ z 99 ⊛ z 1808 ⊹ ig11 ⊛ z 98 ⊛ z 1795 ⊹ ig22 ⊛ z 99 ⊛ z 1806 ⊹ ig31 ⊛ z 98 ⊛
    z 1798 ⊝ mg ⊛ (z 200 ⊛ z 1822 ⊹ z 201 ⊛ z 1824 ⊝ z 205 ⊛ z 1817)),
(2028, z 2027 ⊹ z 903 ⊛ z 1949 ⊹ z 907 ⊛ z 1957 ⊝ z 902 ⊛ z 1947 ⊝ z 906 ⊛ z 1954 ⊝ z 1686 ⊛ z 666
    ⊝ z 1690 ⊛ z 665),
(2029, z 538 ⊛ z 1952 ⊹ z 887 ⊛ z 1057 ⊹ z 918 ⊛ z 1531 ⊹ z 926 ⊛ z 1572 ⊹ z 935 ⊛ z 1604 ⊝ z 541
    ⊛ z 1955 ⊝ z 888 ⊛ z 1478),
(2030, z 2029 ⊹ z 538 ⊛ z 1953 ⊹ z 544 ⊛ z 1847 ⊹ z 547 ⊛ z 1948 ⊹ z 549 ⊛ z 1950 ⊹ z 940 ⊛ z 1531
    ⊹ z 941 ⊛ z 1572 ⊹ z 944 ⊛ z 1604 ⊹ z 946 ⊛ z 1057 ⊝ z 541 ⊛ z 1956 ⊝ z 947 ⊛ z 1478),
(2031, z 542 ⊛ z 1955 ⊹ z 888 ⊛ z 1472 ⊝ z 539 ⊛ z 1952 ⊝ z 887 ⊛ z 1058 ⊝ z 918 ⊛ z 1532 ⊝ z 935
    ⊛ z 1606),
(2032, z 2031 ⊹ z 538 ⊛ z 1698 ⊹ z 544 ⊛ z 1699 ⊹ z 547 ⊛ z 1719 ⊹ z 549 ⊛ z 1700 ⊹ z 954 ⊛ z 1572
    ⊹ z 955 ⊛ z 1531 ⊹ z 957 ⊛ z 1057 ⊹ z 961 ⊛ z 1604 ⊝ z 541 ⊛ z 1695 ⊝ z 958 ⊛ z 1478),
(2033, z 949 ⊛ z 1701 ⊹ z 964 ⊛ z 2030 ⊝ z 950 ⊛ z 2032 ⊝ z 963 ⊛ z 1979),
(2034, z 905 ⊛ z 1717 ⊝ z 973 ⊛ z 1691 ⊝ z 983 ⊛ z 1702),
(2035, z 949 ⊛ z 1703 ⊹ z 960 ⊛ z 2030 ⊝ z 945 ⊛ z 2032 ⊝ z 963 ⊛ z 1980),
(2036, z 978 ⊛ z 1691 ⊹ z 983 ⊛ z 1713 ⊝ z 979 ⊛ z 1722 ⊝ z 982 ⊛ z 1717),
(2037, z 543 ⊛ z 1955 ⊹ z 888 ⊛ z 1475 ⊹ z 926 ⊛ z 1573 ⊹ z 935 ⊛ z 1605 ⊝ z 540 ⊛ z 1952 ⊝ z 887
    ⊛ z 1059 ⊝ z 918 ⊛ z 1533),
(2038, z 2037 ⊹ z 538 ⊛ z 1710 ⊹ z 544 ⊛ z 1711 ⊹ z 547 ⊛ z 1716 ⊹ z 549 ⊛ z 1712 ⊹ z 967 ⊛ z 1572
    ⊹ z 970 ⊛ z 1531 ⊹ z 971 ⊛ z 1057 ⊹ z 975 ⊛ z 1604 ⊝ z 541 ⊛ z 1707 ⊝ z 972 ⊛ z 1478),
(2039, z 902 ⊛ z 1531 ⊹ z 903 ⊛ z 1572 ⊹ z 906 ⊛ z 1057 ⊝ z 538 ⊛ z 1690 ⊝ z 541 ⊛ z 1686 ⊝ z 907
    ⊛ z 1478),
(2040, z 905 ⊛ z 2038 ⊝ z 973 ⊛ z 2039 ⊝ z 981 ⊛ z 1702),
(2041, z 977 ⊛ z 1722 ⊹ z 982 ⊛ z 2038 ⊝ z 978 ⊛ z 2039 ⊝ z 981 ⊛ z 1713),
(2042, z 949 ⊛ z 1720 ⊹ z 965 ⊛ z 2030 ⊝ z 951 ⊛ z 2032 ⊝ z 963 ⊛ z 1983),
(2043, z 905 ⊛ z 1713 ⊝ z 973 ⊛ z 1722 ⊝ z 982 ⊛ z 1702),
(2044, z 977 ⊛ z 1691 ⊹ z 983 ⊛ z 2038 ⊝ z 979 ⊛ z 2039 ⊝ z 981 ⊛ z 1717),
(2045, z 989 ⊛ z 2034 ⊹ z 990 ⊛ z 2033 ⊹ z 993 ⊛ z 2036 ⊹ z 994 ⊛ z 2035 ⊹ z 995 ⊛ z 2040 ⊹ z 996
    ⊛ z 1984 ⊹ z 999 ⊛ z 2041 ⊹ z 1000 ⊛ z 1985 ⊝ z 991 ⊛ z 2043 ⊝ z 992 ⊛ z 2042 ⊝ z 997 ⊛ z 2044
    ⊝ z 998 ⊛ z 1981),
(2046, (z 2045 ⊛ (z 1005 ⊛ z 985 ⊹ z 1022 ⊛ z 987 ⊝ z 1015 ⊛ z 986 ⊝ z 1026 ⊛ z 988) ⊝ z 1001 ⊛ (z
    1724 ⊛ z 985 ⊹ z 1986 ⊛ z 987 ⊹ z 1015 ⊛ (z 2025 ⊝ z 2015) ⊝ z 1026 ⊛ z 2028 ⊝ z 2012 ⊛ z 986
    ⊝ z 2026 ⊛ z 988 ⊝ z 1005 ⊛ (z 1977 ⊝ z 1958) ⊝ z 1022 ⊛ (z 2008 ⊝ z 1989))) ⊘ pow (z 1001) 2),
(2047, z 1 ⊛ z 3 ⊛ (z 13 ⊛ z 6 ⊝ z 14 ⊛ z 5)),
(2048, z 1 ⊛ (z 4 ⊛ z 17 ⊹ z 3 ⊛ z 5 ⊛ z 19 ⊹ z 3 ⊛ z 6 ⊛ z 16)),
(2049, z 1 ⊛ (z 4 ⊛ z 15 ⊝ z 3 ⊛ z 5 ⊛ z 20 ⊝ z 3 ⊛ z 6 ⊛ z 18)),
(2050, mg ⊛ (z 201 ⊛ z 2049 ⊝ z 200 ⊛ z 2048 ⊝ z 205 ⊛ z 2047)),
(2051, z 20 ⊛ z 1156 ⊝ n 2 ⊛ z 15 ⊛ z 1152),
(2052, z 19 ⊛ z 1156 ⊹ n 2 ⊛ z 17 ⊛ z 1152),
(2053, n 2 ⊛ z 21 ⊛ z 19 ⊛ z 1152 ⊝ n 2 ⊛ z 22 ⊛ z 16 ⊛ z 1152 ⊝ z 21 ⊛ z 17 ⊛ z 1156),
(2055, l5 ⊛ z 2051 ⊝ z 2054 ⊛ z 1156),
(2056, z 21 ⊛ z 15 ⊛ z 1156 ⊹ n 2 ⊛ z 21 ⊛ z 20 ⊛ z 1152 ⊝ n 2 ⊛ z 22 ⊛ z 18 ⊛ z 1152),
(2058, z 2057 ⊛ z 1152),
(2060, ig22 ⊛ z 99 ⊛ z 2052 ⊹ ig31 ⊛ z 98 ⊛ z 2051 ⊹ z 2059 ⊛ z 98 ⊛ z 1156 ⊝ mg ⊛ (z 200 ⊛ (z
    2053 ⊹ z 2055) ⊹ z 201 ⊛ (z 2056 ⊝ l5 ⊛ z 2052) ⊝ z 205 ⊛ (n 2 ⊛ z 2058 ⊹ l6 ⊛ z 2052))),
(2061, z 2 ⊛ z 3 ⊛ (z 13 ⊛ z 6 ⊝ z 14 ⊛ z 5)),
(2062, z 2 ⊛ (z 4 ⊛ z 17 ⊹ z 3 ⊛ z 5 ⊛ z 19 ⊹ z 3 ⊛ z 6 ⊛ z 16)),
(2063, z 2 ⊛ (z 4 ⊛ z 15 ⊝ z 3 ⊛ z 5 ⊛ z 20 ⊝ z 3 ⊛ z 6 ⊛ z 18)),
(2064, mg ⊛ (z 201 ⊛ z 2063 ⊝ z 200 ⊛ z 2062 ⊝ z 205 ⊛ z 2061)),
(2065, z 4 ⊛ (z 13 ⊛ z 6 ⊝ z 14 ⊛ z 5)),
(2066, neg (z 3) ⊛ z 15 ⊝ z 4 ⊛ z 5 ⊛ z 20 ⊝ z 4 ⊛ z 6 ⊛ z 18),
(2067, z 3 ⊛ z 17 ⊝ z 4 ⊛ z 5 ⊛ z 19 ⊝ z 4 ⊛ z 6 ⊛ z 16)]

end BP.EL

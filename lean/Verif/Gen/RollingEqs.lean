import Verif.Gen.Rolling

/-!
# Generated by tools/gen_rolling.py
-/

namespace BP.EL

open E

theorem rollEqs {m : ℕ → ℝ} (heq : ∀ s ∈ body, m s.1 = s.2.val real m) : RollEqs m where
  e35 := heq (35, pow (z 33) 2 ⊹ pow (z 34) 2) (rate_mem (by decide +kernel))
  e36 := heq (36, hpow (z 35) 1) (rate_mem (by decide +kernel))
  e38 := heq (38, z 34 ⊘ z 36) (rate_mem (by decide +kernel))
  e40 := heq (40, rf ⊛ z 38) (rate_mem (by decide +kernel))
  e37 := heq (37, z 33 ⊘ z 36) (rate_mem (by decide +kernel))
  e39 := heq (39, rf ⊛ z 37) (rate_mem (by decide +kernel))
  e410 := heq (410, z 5 ⊛ z 29) (rate_mem (by decide +kernel))
  e415 := heq (415, z 33 ⊛ z 410) (rate_mem (by decide +kernel))
  e417 := heq (417, z 415 ⊘ hpow (z 35) 1) (rate_mem (by decide +kernel))
  e435 := heq (435, (z 33 ⊛ z 417 ⊝ z 36 ⊛ z 410) ⊘ pow (z 36) 2) (rate_mem (by decide +kernel))
  e441 := heq (441, rf ⊛ z 435) (rate_mem (by decide +kernel))
  e427 := heq (427, z 34 ⊛ z 417 ⊘ pow (z 36) 2) (rate_mem (by decide +kernel))
  e429 := heq (429, rf ⊛ z 427) (rate_mem (by decide +kernel))
  e450 := heq (450, z 28 ⊛ z 441 ⊹ z 32 ⊛ z 429) (rate_mem (by decide +kernel))
  e412 := heq (412, z 25 ⊛ z 34) (rate_mem (by decide +kernel))
  e418 := heq (418, z 412 ⊘ hpow (z 35) 1) (rate_mem (by decide +kernel))
  e424 := heq (424, (z 25 ⊛ z 36 ⊝ z 34 ⊛ z 418) ⊘ pow (z 36) 2) (rate_mem (by decide +kernel))
  e432 := heq (432, rf ⊛ z 424) (rate_mem (by decide +kernel))
  e439 := heq (439, z 33 ⊛ z 418 ⊘ pow (z 36) 2) (rate_mem (by decide +kernel))
  e444 := heq (444, rf ⊛ z 439) (rate_mem (by decide +kernel))
  e453 := heq (453, z 32 ⊛ z 432 ⊝ z 28 ⊛ z 444) (rate_mem (by decide +kernel))
  e448 := heq (448, d2 ⊹ z 40) (rate_mem (by decide +kernel))
  e416 := heq (416, z 25 ⊛ z 33) (rate_mem (by decide +kernel))
  e420 := heq (420, z 416 ⊘ hpow (z 35) 1) (rate_mem (by decide +kernel))
  e437 := heq (437, (z 25 ⊛ z 36 ⊝ z 33 ⊛ z 420) ⊘ pow (z 36) 2) (rate_mem (by decide +kernel))
  e443 := heq (443, rf ⊛ z 437) (rate_mem (by decide +kernel))
  e428 := heq (428, z 34 ⊛ z 420 ⊘ pow (z 36) 2) (rate_mem (by decide +kernel))
  e434 := heq (434, rf ⊛ z 428) (rate_mem (by decide +kernel))
  e455 := heq (455, z 28 ⊛ z 443 ⊝ z 32 ⊛ z 434) (rate_mem (by decide +kernel))
  e414 := heq (414, z 29 ⊛ z 34) (rate_mem (by decide +kernel))
  e419 := heq (419, z 414 ⊘ hpow (z 35) 1) (rate_mem (by decide +kernel))
  e426 := heq (426, (z 29 ⊛ z 36 ⊝ z 34 ⊛ z 419) ⊘ pow (z 36) 2) (rate_mem (by decide +kernel))
  e433 := heq (433, rf ⊛ z 426) (rate_mem (by decide +kernel))
  e440 := heq (440, z 33 ⊛ z 419 ⊘ pow (z 36) 2) (rate_mem (by decide +kernel))
  e445 := heq (445, rf ⊛ z 440) (rate_mem (by decide +kernel))
  e454 := heq (454, z 32 ⊛ z 433 ⊝ z 28 ⊛ z 445) (rate_mem (by decide +kernel))
  e413 := heq (413, n 2 ⊛ z 27 ⊛ z 34 ⊹ n 2 ⊛ z 31 ⊛ z 33) (rate_mem (by decide +kernel))
  e422 := heq (422, z 413 ⊘ hpow (z 35) 1) (rate_mem (by decide +kernel))
  e438 := heq (438, (n 2 ⊛ z 31 ⊛ z 36 ⊝ z 33 ⊛ z 422) ⊘ pow (z 36) 2) (rate_mem (by decide +kernel))
  e442 := heq (442, rf ⊛ z 438) (rate_mem (by decide +kernel))
  e425 := heq (425, (n 2 ⊛ z 27 ⊛ z 36 ⊝ z 34 ⊛ z 422) ⊘ pow (z 36) 2) (rate_mem (by decide +kernel))
  e431 := heq (431, rf ⊛ z 425) (rate_mem (by decide +kernel))
  e452 := heq (452, qt 2 ⊛ z 28 ⊛ z 442 ⊹ qt 2 ⊛ z 32 ⊛ z 431) (rate_mem (by decide +kernel))
  e449 := heq (449, d3 ⊹ z 39) (rate_mem (by decide +kernel))
  e411 := heq (411, n 2 ⊛ z 23 ⊛ z 34 ⊝ n 2 ⊛ z 6 ⊛ z 33) (rate_mem (by decide +kernel))
  e421 := heq (421, z 411 ⊘ hpow (z 35) 1) (rate_mem (by decide +kernel))
  e423 := heq (423, (n 2 ⊛ z 23 ⊛ z 36 ⊝ z 34 ⊛ z 421) ⊘ pow (z 36) 2) (rate_mem (by decide +kernel))
  e430 := heq (430, rf ⊛ z 423) (rate_mem (by decide +kernel))
  e436 := heq (436, (z 33 ⊛ z 421 ⊹ n 2 ⊛ z 6 ⊛ z 36) ⊘ pow (z 36) 2) (rate_mem (by decide +kernel))
  e446 := heq (446, rf ⊛ z 436) (rate_mem (by decide +kernel))
  e451 := heq (451, qt 2 ⊛ z 32 ⊛ z 430 ⊝ qt 2 ⊛ z 28 ⊛ z 446) (rate_mem (by decide +kernel))
  e476 := heq (476, z 450 ⊹ z 4 ⊛ z 5 ⊛ z 9 ⊛ z 453 ⊝ d1 ⊛ z 3 ⊛ z 5 ⊝ z 3 ⊛ z 6 ⊛ z 448 ⊝ z 4 ⊛ z 6 ⊛ z 455 ⊝ z 6 ⊛ z 9 ⊛ z 454 ⊝ z 6 ⊛ z 10 ⊛ z 452 ⊝ z 3 ⊛ z 5 ⊛ z 9 ⊛ z 449 ⊝ z 4 ⊛ z 5 ⊛ z 10 ⊛ z 451) (rate_mem (by decide +kernel))
  e499 := heq (499, z 473 ⊛ z 476) (rate_mem (by decide +kernel))
  e515 := heq (515, z 2 ⊛ z 463) (rate_mem (by decide +kernel))
  e496 := heq (496, z 470 ⊛ z 476) (rate_mem (by decide +kernel))
  e513 := heq (513, z 2 ⊛ z 466 ⊝ z 228 ⊛ z 462) (rate_mem (by decide +kernel))
  e502 := heq (502, z 469 ⊛ z 476) (rate_mem (by decide +kernel))
  e517 := heq (517, z 228 ⊛ z 463) (rate_mem (by decide +kernel))
  e519 := heq (519, z 499 ⊛ z 515 ⊝ z 496 ⊛ z 513 ⊝ z 502 ⊛ z 517) (rate_mem (by decide +kernel))
  e487 := heq (487, neg (z 2) ⊛ z 458 ⊝ z 228 ⊛ z 457) (rate_mem (by decide +kernel))
  e498 := heq (498, z 457 ⊛ z 463) (rate_mem (by decide +kernel))
  e501 := heq (501, z 458 ⊛ z 463) (rate_mem (by decide +kernel))
  e495 := heq (495, z 457 ⊛ z 466 ⊹ z 458 ⊛ z 462) (rate_mem (by decide +kernel))
  e504 := heq (504, z 498 ⊛ z 499 ⊹ z 501 ⊛ z 502 ⊝ z 495 ⊛ z 496) (rate_mem (by decide +kernel))
  e447 := heq (447, rr ⊛ z 4) (rate_mem (by decide +kernel))
  e475 := heq (475, z 447 ⊹ d1 ⊛ z 4 ⊛ z 6 ⊹ z 3 ⊛ z 5 ⊛ z 455 ⊹ z 449 ⊛ (z 3 ⊛ z 10 ⊹ z 4 ⊛ z 24) ⊹ z 453 ⊛ (z 3 ⊛ z 24 ⊝ z 4 ⊛ z 10) ⊝ z 4 ⊛ z 5 ⊛ z 448 ⊝ z 451 ⊛ (z 3 ⊛ z 26 ⊹ z 4 ⊛ z 9)) (rate_mem (by decide +kernel))
  e481 := heq (481, z 464 ⊛ z 470 ⊝ z 463 ⊛ z 471) (rate_mem (by decide +kernel))
  e484 := heq (484, z 462 ⊛ z 470 ⊝ z 463 ⊛ z 469) (rate_mem (by decide +kernel))
  e492 := heq (492, z 225 ⊛ z 458 ⊹ z 228 ⊛ z 459) (rate_mem (by decide +kernel))
  e480 := heq (480, z 466 ⊛ z 470 ⊝ z 463 ⊛ z 473) (rate_mem (by decide +kernel))
  e490 := heq (490, z 2 ⊛ z 459 ⊝ z 225 ⊛ z 457) (rate_mem (by decide +kernel))
  e533 := heq (533, z 481 ⊛ z 487 ⊹ z 484 ⊛ z 492 ⊝ z 480 ⊛ z 490) (rate_mem (by decide +kernel))
  e528 := heq (528, z 463 ⊛ z 476) (rate_mem (by decide +kernel))
  e482 := heq (482, neg (z 1) ⊛ z 458 ⊝ z 228 ⊛ z 456) (rate_mem (by decide +kernel))
  e478 := heq (478, z 1 ⊛ z 457 ⊝ z 2 ⊛ z 456) (rate_mem (by decide +kernel))
  e489 := heq (489, z 461 ⊛ z 470 ⊝ z 463 ⊛ z 468) (rate_mem (by decide +kernel))
  e494 := heq (494, z 476 ⊛ (z 482 ⊛ z 484 ⊝ z 478 ⊛ z 480 ⊝ z 487 ⊛ z 489)) (rate_mem (by decide +kernel))
  e538 := heq (538, (z 460 ⊛ z 519 ⊹ z 465 ⊛ z 487 ⊛ z 496 ⊝ z 224 ⊛ z 504 ⊝ z 475 ⊛ z 533 ⊝ z 472 ⊛ z 487 ⊛ z 528) ⊘ z 494) (rate_mem (by decide +kernel))
  e539 := heq (539, z 227 ⊛ z 504 ⊘ z 494) (rate_mem (by decide +kernel))
  e477 := heq (477, z 5 ⊛ z 9 ⊛ z 452 ⊹ z 449 ⊛ (z 4 ⊛ z 9 ⊹ z 3 ⊛ z 6 ⊛ z 10) ⊹ z 453 ⊛ (z 3 ⊛ z 9 ⊝ z 4 ⊛ z 6 ⊛ z 10) ⊝ z 5 ⊛ z 10 ⊛ z 454 ⊝ z 451 ⊛ (z 3 ⊛ z 10 ⊹ z 4 ⊛ z 6 ⊛ z 9)) (rate_mem (by decide +kernel))
  e540 := heq (540, (z 477 ⊛ z 533 ⊹ z 467 ⊛ z 487 ⊛ z 496 ⊹ z 474 ⊛ z 487 ⊛ z 528) ⊘ z 494) (rate_mem (by decide +kernel))
  e5085 := heq (5085, z 538 ⊛ u4 ⊝ z 539 ⊛ u6 ⊝ z 540 ⊛ u7) (rate_mem (by decide +kernel))
  e5086 := heq (5086, u1) (rate_mem (by decide +kernel))
  e507 := heq (507, z 456 ⊛ z 463) (rate_mem (by decide +kernel))
  e508 := heq (508, z 468 ⊛ z 476) (rate_mem (by decide +kernel))
  e505 := heq (505, z 456 ⊛ z 466 ⊹ z 458 ⊛ z 461) (rate_mem (by decide +kernel))
  e509 := heq (509, z 499 ⊛ z 507 ⊹ z 501 ⊛ z 508 ⊝ z 496 ⊛ z 505) (rate_mem (by decide +kernel))
  e542 := heq (542, z 227 ⊛ z 509 ⊘ z 494) (rate_mem (by decide +kernel))
  e485 := heq (485, z 1 ⊛ z 459 ⊝ z 225 ⊛ z 456) (rate_mem (by decide +kernel))
  e534 := heq (534, z 481 ⊛ z 482 ⊹ z 489 ⊛ z 492 ⊝ z 480 ⊛ z 485) (rate_mem (by decide +kernel))
  e543 := heq (543, (z 477 ⊛ z 534 ⊹ z 467 ⊛ z 482 ⊛ z 496 ⊹ z 474 ⊛ z 482 ⊛ z 528) ⊘ z 494) (rate_mem (by decide +kernel))
  e522 := heq (522, z 1 ⊛ z 463) (rate_mem (by decide +kernel))
  e520 := heq (520, z 1 ⊛ z 466 ⊝ z 228 ⊛ z 461) (rate_mem (by decide +kernel))
  e523 := heq (523, z 499 ⊛ z 522 ⊝ z 496 ⊛ z 520 ⊝ z 508 ⊛ z 517) (rate_mem (by decide +kernel))
  e541 := heq (541, (z 460 ⊛ z 523 ⊹ z 465 ⊛ z 482 ⊛ z 496 ⊝ z 224 ⊛ z 509 ⊝ z 475 ⊛ z 534 ⊝ z 472 ⊛ z 482 ⊛ z 528) ⊘ z 494) (rate_mem (by decide +kernel))
  e5087 := heq (5087, z 542 ⊛ u6 ⊹ z 543 ⊛ u7 ⊝ z 541 ⊛ u4) (rate_mem (by decide +kernel))
  e5088 := heq (5088, u2) (rate_mem (by decide +kernel))
  e524 := heq (524, z 1 ⊛ z 462 ⊝ z 2 ⊛ z 461) (rate_mem (by decide +kernel))
  e525 := heq (525, z 502 ⊛ z 522 ⊝ z 496 ⊛ z 524 ⊝ z 508 ⊛ z 515) (rate_mem (by decide +kernel))
  e510 := heq (510, z 456 ⊛ z 462 ⊝ z 457 ⊛ z 461) (rate_mem (by decide +kernel))
  e511 := heq (511, z 502 ⊛ z 507 ⊝ z 496 ⊛ z 510 ⊝ z 498 ⊛ z 508) (rate_mem (by decide +kernel))
  e535 := heq (535, z 478 ⊛ z 481 ⊹ z 489 ⊛ z 490 ⊝ z 484 ⊛ z 485) (rate_mem (by decide +kernel))
  e544 := heq (544, (z 460 ⊛ z 525 ⊹ z 465 ⊛ z 478 ⊛ z 496 ⊝ z 224 ⊛ z 511 ⊝ z 475 ⊛ z 535 ⊝ z 472 ⊛ z 478 ⊛ z 528) ⊘ z 494) (rate_mem (by decide +kernel))
  e545 := heq (545, z 227 ⊛ z 511 ⊘ z 494) (rate_mem (by decide +kernel))
  e546 := heq (546, (z 477 ⊛ z 535 ⊹ z 467 ⊛ z 478 ⊛ z 496 ⊹ z 474 ⊛ z 478 ⊛ z 528) ⊘ z 494) (rate_mem (by decide +kernel))
  e5089 := heq (5089, z 544 ⊛ u4 ⊝ z 545 ⊛ u6 ⊝ z 546 ⊛ u7) (rate_mem (by decide +kernel))
  e5090 := heq (5090, u3) (rate_mem (by decide +kernel))
  e5091 := heq (5091, u4) (rate_mem (by decide +kernel))
  e536 := heq (536, z 478 ⊛ z 480 ⊹ z 487 ⊛ z 489 ⊝ z 482 ⊛ z 484) (rate_mem (by decide +kernel))
  e547 := heq (547, z 475 ⊛ z 536 ⊘ z 494) (rate_mem (by decide +kernel))
  e548 := heq (548, z 477 ⊛ z 536 ⊘ z 494) (rate_mem (by decide +kernel))
  e5092 := heq (5092, z 547 ⊛ u4 ⊹ z 548 ⊛ u7) (rate_mem (by decide +kernel))
  e5093 := heq (5093, u5) (rate_mem (by decide +kernel))
  e5094 := heq (5094, u6) (rate_mem (by decide +kernel))
  e5095 := heq (5095, u7) (rate_mem (by decide +kernel))
  e526 := heq (526, z 499 ⊛ z 524 ⊹ z 508 ⊛ z 513 ⊝ z 502 ⊛ z 520) (rate_mem (by decide +kernel))
  e529 := heq (529, z 466 ⊛ z 476) (rate_mem (by decide +kernel))
  e531 := heq (531, z 461 ⊛ z 476) (rate_mem (by decide +kernel))
  e530 := heq (530, z 462 ⊛ z 476) (rate_mem (by decide +kernel))
  e532 := heq (532, z 478 ⊛ z 529 ⊹ z 487 ⊛ z 531 ⊝ z 482 ⊛ z 530) (rate_mem (by decide +kernel))
  e512 := heq (512, z 495 ⊛ z 508 ⊹ z 499 ⊛ z 510 ⊝ z 502 ⊛ z 505) (rate_mem (by decide +kernel))
  e527 := heq (527, z 478 ⊛ z 499 ⊹ z 487 ⊛ z 508 ⊝ z 482 ⊛ z 502) (rate_mem (by decide +kernel))
  e479 := heq (479, z 466 ⊛ z 471 ⊝ z 464 ⊛ z 473) (rate_mem (by decide +kernel))
  e486 := heq (486, z 462 ⊛ z 473 ⊝ z 466 ⊛ z 469) (rate_mem (by decide +kernel))
  e488 := heq (488, z 461 ⊛ z 471 ⊝ z 464 ⊛ z 468) (rate_mem (by decide +kernel))
  e493 := heq (493, z 461 ⊛ z 469 ⊝ z 462 ⊛ z 468) (rate_mem (by decide +kernel))
  e483 := heq (483, z 462 ⊛ z 471 ⊝ z 464 ⊛ z 469) (rate_mem (by decide +kernel))
  e491 := heq (491, z 461 ⊛ z 473 ⊝ z 466 ⊛ z 468) (rate_mem (by decide +kernel))
  e537 := heq (537, z 478 ⊛ z 479 ⊹ z 485 ⊛ z 486 ⊹ z 487 ⊛ z 488 ⊹ z 492 ⊛ z 493 ⊝ z 482 ⊛ z 483 ⊝ z 490 ⊛ z 491) (rate_mem (by decide +kernel))
  e549 := heq (549, (z 460 ⊛ z 526 ⊹ z 472 ⊛ z 532 ⊝ z 224 ⊛ z 512 ⊝ z 465 ⊛ z 527 ⊝ z 475 ⊛ z 537) ⊘ z 494) (rate_mem (by decide +kernel))
  e551 := heq (551, (z 467 ⊛ z 527 ⊹ z 474 ⊛ z 532 ⊝ z 477 ⊛ z 537) ⊘ z 494) (rate_mem (by decide +kernel))
  e550 := heq (550, z 227 ⊛ z 512 ⊘ z 494) (rate_mem (by decide +kernel))
  e5096 := heq (5096, z 549 ⊛ u4 ⊹ z 551 ⊛ u7 ⊝ z 550 ⊛ u6) (rate_mem (by decide +kernel))
  e5097 := heq (5097, u8) (rate_mem (by decide +kernel))

end BP.EL

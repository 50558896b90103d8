import Verif.Lemmas.JacobianChecks

/-!
# Generated by tools/gen_rolling.py
-/

namespace BP.EL

/-- Statements. -/
theorem rate_mem {s : ℕ × E} (h : (rateBody.any fun t => decide (t = s)) = true) : s ∈ body := by
  obtain ⟨t, ht, e⟩ := List.any_eq_true.mp h
  rw [decide_eq_true_eq] at e
  exact e ▸ List.mem_of_mem_take ht

/-- Equations between cells. -/
structure RollEqs (m : ℕ → ℝ) : Prop where
  e35 : m 35 = m 33 ^ 2 + m 34 ^ 2
  e36 : m 36 = √(m 35) ^ 1
  e38 : m 38 = m 34 / m 36
  e40 : m 40 = m 5082 * m 38
  e37 : m 37 = m 33 / m 36
  e39 : m 39 = m 5082 * m 37
  e410 : m 410 = m 5 * m 29
  e415 : m 415 = m 33 * m 410
  e417 : m 417 = m 415 / √(m 35) ^ 1
  e435 : m 435 = (m 33 * m 417 - m 36 * m 410) / m 36 ^ 2
  e441 : m 441 = m 5082 * m 435
  e427 : m 427 = m 34 * m 417 / m 36 ^ 2
  e429 : m 429 = m 5082 * m 427
  e450 : m 450 = m 28 * m 441 + m 32 * m 429
  e412 : m 412 = m 25 * m 34
  e418 : m 418 = m 412 / √(m 35) ^ 1
  e424 : m 424 = (m 25 * m 36 - m 34 * m 418) / m 36 ^ 2
  e432 : m 432 = m 5082 * m 424
  e439 : m 439 = m 33 * m 418 / m 36 ^ 2
  e444 : m 444 = m 5082 * m 439
  e453 : m 453 = m 32 * m 432 - m 28 * m 444
  e448 : m 448 = m 5050 + m 40
  e416 : m 416 = m 25 * m 33
  e420 : m 420 = m 416 / √(m 35) ^ 1
  e437 : m 437 = (m 25 * m 36 - m 33 * m 420) / m 36 ^ 2
  e443 : m 443 = m 5082 * m 437
  e428 : m 428 = m 34 * m 420 / m 36 ^ 2
  e434 : m 434 = m 5082 * m 428
  e455 : m 455 = m 28 * m 443 - m 32 * m 434
  e414 : m 414 = m 29 * m 34
  e419 : m 419 = m 414 / √(m 35) ^ 1
  e426 : m 426 = (m 29 * m 36 - m 34 * m 419) / m 36 ^ 2
  e433 : m 433 = m 5082 * m 426
  e440 : m 440 = m 33 * m 419 / m 36 ^ 2
  e445 : m 445 = m 5082 * m 440
  e454 : m 454 = m 32 * m 433 - m 28 * m 445
  e413 : m 413 = ((2 : ℕ) : ℝ) * m 27 * m 34 + ((2 : ℕ) : ℝ) * m 31 * m 33
  e422 : m 422 = m 413 / √(m 35) ^ 1
  e438 : m 438 = (((2 : ℕ) : ℝ) * m 31 * m 36 - m 33 * m 422) / m 36 ^ 2
  e442 : m 442 = m 5082 * m 438
  e425 : m 425 = (((2 : ℕ) : ℝ) * m 27 * m 36 - m 34 * m 422) / m 36 ^ 2
  e431 : m 431 = m 5082 * m 425
  e452 : m 452 = ((2 : ℕ) : ℝ) / 4 * m 28 * m 442 + ((2 : ℕ) : ℝ) / 4 * m 32 * m 431
  e449 : m 449 = m 5051 + m 39
  e411 : m 411 = ((2 : ℕ) : ℝ) * m 23 * m 34 - ((2 : ℕ) : ℝ) * m 6 * m 33
  e421 : m 421 = m 411 / √(m 35) ^ 1
  e423 : m 423 = (((2 : ℕ) : ℝ) * m 23 * m 36 - m 34 * m 421) / m 36 ^ 2
  e430 : m 430 = m 5082 * m 423
  e436 : m 436 = (m 33 * m 421 + ((2 : ℕ) : ℝ) * m 6 * m 36) / m 36 ^ 2
  e446 : m 446 = m 5082 * m 436
  e451 : m 451 = ((2 : ℕ) : ℝ) / 4 * m 32 * m 430 - ((2 : ℕ) : ℝ) / 4 * m 28 * m 446
  e476 : m 476 = m 450 + m 4 * m 5 * m 9 * m 453 - m 5049 * m 3 * m 5 - m 3 * m 6 * m 448 - m 4 * m 6 * m 455 - m 6 * m 9 * m 454 - m 6 * m 10 * m 452 - m 3 * m 5 * m 9 * m 449 - m 4 * m 5 * m 10 * m 451
  e499 : m 499 = m 473 * m 476
  e515 : m 515 = m 2 * m 463
  e496 : m 496 = m 470 * m 476
  e513 : m 513 = m 2 * m 466 - m 228 * m 462
  e502 : m 502 = m 469 * m 476
  e517 : m 517 = m 228 * m 463
  e519 : m 519 = m 499 * m 515 - m 496 * m 513 - m 502 * m 517
  e487 : m 487 = -m 2 * m 458 - m 228 * m 457
  e498 : m 498 = m 457 * m 463
  e501 : m 501 = m 458 * m 463
  e495 : m 495 = m 457 * m 466 + m 458 * m 462
  e504 : m 504 = m 498 * m 499 + m 501 * m 502 - m 495 * m 496
  e447 : m 447 = m 5083 * m 4
  e475 : m 475 = m 447 + m 5049 * m 4 * m 6 + m 3 * m 5 * m 455 + m 449 * (m 3 * m 10 + m 4 * m 24) + m 453 * (m 3 * m 24 - m 4 * m 10) - m 4 * m 5 * m 448 - m 451 * (m 3 * m 26 + m 4 * m 9)
  e481 : m 481 = m 464 * m 470 - m 463 * m 471
  e484 : m 484 = m 462 * m 470 - m 463 * m 469
  e492 : m 492 = m 225 * m 458 + m 228 * m 459
  e480 : m 480 = m 466 * m 470 - m 463 * m 473
  e490 : m 490 = m 2 * m 459 - m 225 * m 457
  e533 : m 533 = m 481 * m 487 + m 484 * m 492 - m 480 * m 490
  e528 : m 528 = m 463 * m 476
  e482 : m 482 = -m 1 * m 458 - m 228 * m 456
  e478 : m 478 = m 1 * m 457 - m 2 * m 456
  e489 : m 489 = m 461 * m 470 - m 463 * m 468
  e494 : m 494 = m 476 * (m 482 * m 484 - m 478 * m 480 - m 487 * m 489)
  e538 : m 538 = (m 460 * m 519 + m 465 * m 487 * m 496 - m 224 * m 504 - m 475 * m 533 - m 472 * m 487 * m 528) / m 494
  e539 : m 539 = m 227 * m 504 / m 494
  e477 : m 477 = m 5 * m 9 * m 452 + m 449 * (m 4 * m 9 + m 3 * m 6 * m 10) + m 453 * (m 3 * m 9 - m 4 * m 6 * m 10) - m 5 * m 10 * m 454 - m 451 * (m 3 * m 10 + m 4 * m 6 * m 9)
  e540 : m 540 = (m 477 * m 533 + m 467 * m 487 * m 496 + m 474 * m 487 * m 528) / m 494
  e5085 : m 5085 = m 538 * m 5040 - m 539 * m 5041 - m 540 * m 5042
  e5086 : m 5086 = m 5085
  e507 : m 507 = m 456 * m 463
  e508 : m 508 = m 468 * m 476
  e505 : m 505 = m 456 * m 466 + m 458 * m 461
  e509 : m 509 = m 499 * m 507 + m 501 * m 508 - m 496 * m 505
  e542 : m 542 = m 227 * m 509 / m 494
  e485 : m 485 = m 1 * m 459 - m 225 * m 456
  e534 : m 534 = m 481 * m 482 + m 489 * m 492 - m 480 * m 485
  e543 : m 543 = (m 477 * m 534 + m 467 * m 482 * m 496 + m 474 * m 482 * m 528) / m 494
  e522 : m 522 = m 1 * m 463
  e520 : m 520 = m 1 * m 466 - m 228 * m 461
  e523 : m 523 = m 499 * m 522 - m 496 * m 520 - m 508 * m 517
  e541 : m 541 = (m 460 * m 523 + m 465 * m 482 * m 496 - m 224 * m 509 - m 475 * m 534 - m 472 * m 482 * m 528) / m 494
  e5087 : m 5087 = m 542 * m 5041 + m 543 * m 5042 - m 541 * m 5040
  e5088 : m 5088 = m 5087
  e524 : m 524 = m 1 * m 462 - m 2 * m 461
  e525 : m 525 = m 502 * m 522 - m 496 * m 524 - m 508 * m 515
  e510 : m 510 = m 456 * m 462 - m 457 * m 461
  e511 : m 511 = m 502 * m 507 - m 496 * m 510 - m 498 * m 508
  e535 : m 535 = m 478 * m 481 + m 489 * m 490 - m 484 * m 485
  e544 : m 544 = (m 460 * m 525 + m 465 * m 478 * m 496 - m 224 * m 511 - m 475 * m 535 - m 472 * m 478 * m 528) / m 494
  e545 : m 545 = m 227 * m 511 / m 494
  e546 : m 546 = (m 477 * m 535 + m 467 * m 478 * m 496 + m 474 * m 478 * m 528) / m 494
  e5089 : m 5089 = m 544 * m 5040 - m 545 * m 5041 - m 546 * m 5042
  e5090 : m 5090 = m 5089
  e5091 : m 5091 = m 5040
  e536 : m 536 = m 478 * m 480 + m 487 * m 489 - m 482 * m 484
  e547 : m 547 = m 475 * m 536 / m 494
  e548 : m 548 = m 477 * m 536 / m 494
  e5092 : m 5092 = m 547 * m 5040 + m 548 * m 5042
  e5093 : m 5093 = m 5092
  e5094 : m 5094 = m 5041
  e5095 : m 5095 = m 5042
  e526 : m 526 = m 499 * m 524 + m 508 * m 513 - m 502 * m 520
  e529 : m 529 = m 466 * m 476
  e531 : m 531 = m 461 * m 476
  e530 : m 530 = m 462 * m 476
  e532 : m 532 = m 478 * m 529 + m 487 * m 531 - m 482 * m 530
  e512 : m 512 = m 495 * m 508 + m 499 * m 510 - m 502 * m 505
  e527 : m 527 = m 478 * m 499 + m 487 * m 508 - m 482 * m 502
  e479 : m 479 = m 466 * m 471 - m 464 * m 473
  e486 : m 486 = m 462 * m 473 - m 466 * m 469
  e488 : m 488 = m 461 * m 471 - m 464 * m 468
  e493 : m 493 = m 461 * m 469 - m 462 * m 468
  e483 : m 483 = m 462 * m 471 - m 464 * m 469
  e491 : m 491 = m 461 * m 473 - m 466 * m 468
  e537 : m 537 = m 478 * m 479 + m 485 * m 486 + m 487 * m 488 + m 492 * m 493 - m 482 * m 483 - m 490 * m 491
  e549 : m 549 = (m 460 * m 526 + m 472 * m 532 - m 224 * m 512 - m 465 * m 527 - m 475 * m 537) / m 494
  e551 : m 551 = (m 467 * m 527 + m 474 * m 532 - m 477 * m 537) / m 494
  e550 : m 550 = m 227 * m 512 / m 494
  e5096 : m 5096 = m 549 * m 5040 + m 551 * m 5042 - m 550 * m 5041
  e5097 : m 5097 = m 5096

def rollTable_1 : JTree := .node (.node (.node (.node (.nil) (.node (.node (.node (.node (.leaf (.trans [(11911, .ofNat 1), (254173, .negSucc 0), (266041, .negSucc 0), (327961, .ofNat 1)] 0)) (.nil)) (.nil)) (.nil)) (.nil))) (.nil)) (.node (.node (.node (.node (.node (.node (.leaf (.trans [(12121, .ofNat 1), (18241, .negSucc 0)] 0)) (.nil)) (.nil)) (.nil)) (.nil)) (.nil)) (.nil))) (.node (.node (.node (.node (.node (.node (.node (.leaf (.trans [(391, .ofNat 1)] 0)) (.nil)) (.nil)) (.nil)) (.nil)) (.nil)) (.nil)) (.node (.node (.node (.node (.node (.node (.leaf (.trans [(47, .ofNat 1)] 0)) (.nil)) (.nil)) (.nil)) (.nil)) (.nil)) (.node (.node (.node (.node (.node (.leaf (.trans [] 0)) (.nil)) (.nil)) (.nil)) (.nil)) (.nil))))

def rollTable_2 : JTree := .node (.node (.node (.nil) (.node (.node (.node (.node (.node (.leaf (.trans [(7627, .ofNat 1)] 0)) (.nil)) (.nil)) (.nil)) (.nil)) (.nil))) (.node (.node (.node (.node (.node (.node (.leaf (.trans [(29, .ofNat 1)] 0)) (.nil)) (.nil)) (.nil)) (.nil)) (.nil)) (.node (.nil) (.node (.node (.node (.node (.leaf (.trans [(5911, .ofNat 1), (6187, .ofNat 1), (7627, .negSucc 0), (298439, .negSucc 0), (322219, .negSucc 0)] 0)) (.nil)) (.nil)) (.nil)) (.nil))))) (.node (.node (.node (.node (.node (.node (.node (.leaf (.trans [] 0)) (.nil)) (.nil)) (.nil)) (.nil)) (.nil)) (.nil)) (.node (.nil) (.node (.node (.node (.node (.node (.leaf (.trans [(4997, .negSucc 0), (152627, .negSucc 0), (211109, .negSucc 0), (5744929, .negSucc 0)] 0)) (.nil)) (.nil)) (.nil)) (.nil)) (.nil))))

def rollTable_3 : JTree := .node (.node (.node (.node (.node (.node (.node (.node (.leaf (.atom 37)) (.nil)) (.nil)) (.nil)) (.nil)) (.node (.node (.node (.node (.leaf (.trans [(263, .negSucc 0), (10291, .negSucc 0), (11111, .negSucc 0)] 0)) (.nil)) (.nil)) (.nil)) (.nil))) (.nil)) (.node (.node (.node (.node (.node (.node (.leaf (.trans [(16813, .ofNat 1)] 0)) (.nil)) (.nil)) (.nil)) (.nil)) (.nil)) (.node (.nil) (.node (.node (.node (.node (.leaf (.trans [(3, .negSucc 0)] 0)) (.nil)) (.nil)) (.nil)) (.nil))))) (.node (.node (.node (.node (.node (.node (.node (.leaf (.atom 257)) (.nil)) (.nil)) (.nil)) (.nil)) (.nil)) (.nil)) (.node (.nil) (.node (.node (.node (.node (.node (.leaf (.trans [(209551, .ofNat 1), (4421819, .ofNat 1), (4963009, .negSucc 0), (5702531, .ofNat 1)] 0)) (.nil)) (.nil)) (.nil)) (.nil)) (.nil))))

def rollTable_4 : JTree := .node (.node (.node (.node (.node (.node (.node (.node (.leaf (.trans [(1189, .ofNat 1)] 0)) (.nil)) (.nil)) (.nil)) (.nil)) (.nil)) (.node (.node (.node (.node (.node (.leaf (.trans [(11029, .ofNat 1)] 0)) (.nil)) (.nil)) (.nil)) (.nil)) (.nil))) (.node (.node (.node (.node (.node (.node (.leaf (.trans [(20723, .negSucc 0), (38399, .ofNat 1), (950011, .negSucc 0)] 0)) (.nil)) (.nil)) (.nil)) (.nil)) (.nil)) (.node (.nil) (.node (.node (.node (.node (.leaf (.trans [(4709, .ofNat 1), (100487, .negSucc 0), (105179, .negSucc 0), (129659, .ofNat 1), (205067, .negSucc 0), (221407, .negSucc 0), (5073463, .ofNat 1), (5477723, .ofNat 1)] 0)) (.nil)) (.nil)) (.nil)) (.nil))))) (.node (.nil) (.node (.node (.node (.node (.node (.node (.leaf (.trans [(46, .ofNat 1), (1653, .negSucc 0)] 0)) (.nil)) (.nil)) (.nil)) (.nil)) (.nil)) (.node (.node (.node (.node (.node (.leaf (.trans [(248239, .negSucc 0)] 0)) (.nil)) (.nil)) (.nil)) (.nil)) (.nil))))

def rollTable_5 : JTree := .node (.node (.node (.node (.node (.node (.node (.node (.node (.leaf (.atom 19)) (.nil)) (.nil)) (.nil)) (.nil)) (.node (.node (.node (.node (.leaf (.trans [(11051, .negSucc 0), (11567, .negSucc 0)] 0)) (.nil)) (.nil)) (.nil)) (.nil))) (.nil)) (.node (.node (.node (.node (.node (.node (.leaf (.trans [(16031, .ofNat 1)] 0)) (.nil)) (.nil)) (.nil)) (.nil)) (.nil)) (.nil))) (.node (.nil) (.node (.nil) (.node (.node (.node (.node (.node (.leaf (.trans [] 0)) (.nil)) (.nil)) (.nil)) (.nil)) (.nil))))) (.node (.node (.node (.nil) (.node (.node (.node (.node (.node (.leaf (.trans [(105961, .ofNat 1), (219773, .negSucc 0), (5437297, .ofNat 1)] 0)) (.nil)) (.nil)) (.nil)) (.nil)) (.nil))) (.node (.nil) (.node (.nil) (.node (.node (.node (.node (.leaf (.trans [(3, .negSucc 0)] 0)) (.nil)) (.nil)) (.nil)) (.nil))))) (.node (.node (.node (.node (.node (.node (.node (.leaf (.trans [(391, .ofNat 1)] 0)) (.nil)) (.nil)) (.nil)) (.nil)) (.nil)) (.nil)) (.node (.nil) (.node (.node (.node (.node (.node (.leaf (.trans [(11051, .negSucc 0)] 0)) (.nil)) (.nil)) (.nil)) (.nil)) (.nil)))))

def rollTable_6 : JTree := .node (.node (.node (.node (.node (.node (.node (.node (.leaf (.atom 53)) (.nil)) (.nil)) (.nil)) (.nil)) (.nil)) (.node (.node (.node (.node (.node (.leaf (.trans [] 0)) (.nil)) (.nil)) (.nil)) (.nil)) (.nil))) (.node (.node (.node (.node (.node (.node (.leaf (.trans [(41, .ofNat 1)] 0)) (.nil)) (.nil)) (.nil)) (.nil)) (.nil)) (.node (.nil) (.node (.node (.node (.node (.leaf (.trans [] 0)) (.nil)) (.nil)) (.nil)) (.nil))))) (.node (.node (.node (.node (.node (.node (.node (.leaf (.trans [(1, .ofNat 1)] 0)) (.nil)) (.nil)) (.nil)) (.nil)) (.nil)) (.nil)) (.node (.nil) (.node (.node (.node (.node (.node (.leaf (.trans [(11567, .negSucc 0)] 0)) (.nil)) (.nil)) (.nil)) (.nil)) (.nil))))

def rollTable_7 : JTree := .node (.node (.node (.node (.node (.node (.node (.node (.leaf (.trans [(817, .ofNat 1), (20213, .negSucc 0)] 0)) (.nil)) (.nil)) (.nil)) (.nil)) (.nil)) (.node (.node (.node (.node (.node (.leaf (.trans [(268019, .negSucc 0)] 0)) (.nil)) (.nil)) (.nil)) (.nil)) (.nil))) (.node (.node (.node (.node (.node (.node (.leaf (.trans [(1537, .negSucc 0), (44321, .ofNat 1)] 0)) (.nil)) (.nil)) (.nil)) (.nil)) (.nil)) (.nil))) (.node (.node (.node (.node (.node (.node (.node (.leaf (.trans [(713, .ofNat 1), (1073, .negSucc 0)] 0)) (.nil)) (.nil)) (.nil)) (.nil)) (.nil)) (.nil)) (.node (.node (.node (.node (.node (.node (.leaf (.trans [(34, .ofNat 1)] 0)) (.nil)) (.nil)) (.nil)) (.nil)) (.nil)) (.node (.node (.node (.node (.node (.leaf (.trans [(254173, .negSucc 0)] 0)) (.nil)) (.nil)) (.nil)) (.nil)) (.nil))))

def rollTable_8 : JTree := .node (.node (.node (.node (.node (.node (.node (.node (.leaf (.trans [(3, .ofNat 1)] 0)) (.nil)) (.nil)) (.nil)) (.nil)) (.node (.node (.node (.node (.leaf (.trans [(251, .ofNat 1), (271, .ofNat 1)] 0)) (.nil)) (.nil)) (.nil)) (.nil))) (.nil)) (.node (.node (.node (.node (.node (.node (.leaf (.trans [(817, .negSucc 0), (20213, .ofNat 1)] 0)) (.nil)) (.nil)) (.nil)) (.nil)) (.nil)) (.nil))) (.node (.node (.node (.node (.node (.node (.node (.leaf (.trans [(391, .ofNat 1)] 0)) (.nil)) (.nil)) (.nil)) (.nil)) (.nil)) (.nil)) (.node (.nil) (.node (.node (.node (.node (.node (.leaf (.trans [(5263, .ofNat 1)] 0)) (.nil)) (.nil)) (.nil)) (.nil)) (.nil))))

def rollTable_9 : JTree := .node (.node (.node (.nil) (.node (.node (.node (.node (.node (.leaf (.trans [(4997, .negSucc 0), (152627, .negSucc 0)] 0)) (.nil)) (.nil)) (.nil)) (.nil)) (.nil))) (.node (.node (.node (.node (.node (.node (.leaf (.trans [(779, .ofNat 1), (21199, .ofNat 1)] 0)) (.nil)) (.nil)) (.nil)) (.nil)) (.nil)) (.node (.nil) (.node (.node (.node (.node (.leaf (.trans [(5263, .negSucc 0), (112309, .ofNat 1), (117553, .ofNat 1), (144913, .negSucc 0), (183481, .negSucc 0), (198101, .negSucc 0), (5670341, .negSucc 0), (6122161, .negSucc 0)] 0)) (.nil)) (.nil)) (.nil)) (.nil))))) (.node (.nil) (.node (.nil) (.node (.node (.node (.node (.node (.leaf (.trans [(263, .negSucc 0), (11111, .negSucc 0)] 0)) (.nil)) (.nil)) (.nil)) (.nil)) (.nil))))

def rollTable_10 : JTree := .node (.node (.node (.node (.node (.node (.node (.node (.leaf (.atom 43)) (.nil)) (.nil)) (.nil)) (.nil)) (.nil)) (.nil)) (.node (.node (.node (.node (.node (.node (.leaf (.trans [(943, .ofNat 1)] 0)) (.nil)) (.nil)) (.nil)) (.nil)) (.nil)) (.node (.nil) (.node (.node (.node (.node (.leaf (.trans [] 0)) (.nil)) (.nil)) (.nil)) (.nil))))) (.node (.node (.node (.node (.node (.node (.node (.leaf (.trans [(493, .ofNat 1)] 0)) (.nil)) (.nil)) (.nil)) (.nil)) (.nil)) (.nil)) (.node (.nil) (.node (.node (.node (.node (.node (.leaf (.trans [(1462, .ofNat 1), (2829, .ofNat 1), (45182, .ofNat 1)] 0)) (.nil)) (.nil)) (.nil)) (.nil)) (.nil))))

def rollTable_11 : JTree := .node (.node (.node (.node (.node (.node (.node (.node (.leaf (.trans [(1247, .ofNat 1)] 0)) (.nil)) (.nil)) (.nil)) (.nil)) (.nil)) (.node (.node (.node (.node (.node (.leaf (.trans [(209551, .ofNat 1), (5702531, .ofNat 1)] 0)) (.nil)) (.nil)) (.nil)) (.nil)) (.nil))) (.node (.node (.node (.node (.node (.node (.leaf (.trans [(20723, .negSucc 0), (38399, .ofNat 1), (950011, .negSucc 0)] 0)) (.nil)) (.nil)) (.nil)) (.nil)) (.nil)) (.node (.node (.node (.node (.node (.leaf (.trans [(57, .ofNat 1)] 0)) (.nil)) (.nil)) (.nil)) (.nil)) (.node (.node (.node (.node (.leaf (.trans [(174947, .ofNat 1), (188887, .ofNat 1), (5946943, .negSucc 0), (6420803, .negSucc 0)] 0)) (.nil)) (.nil)) (.nil)) (.nil))))) (.node (.node (.node (.node (.node (.node (.node (.leaf (.trans [(14467, .negSucc 0), (15283, .negSucc 0)] 0)) (.nil)) (.nil)) (.nil)) (.nil)) (.nil)) (.node (.nil) (.node (.nil) (.node (.node (.node (.nil) (.leaf (.atom 269))) (.nil)) (.nil))))) (.node (.node (.node (.node (.node (.node (.leaf (.trans [(58, .ofNat 1), (1311, .ofNat 1)] 0)) (.nil)) (.nil)) (.nil)) (.nil)) (.nil)) (.node (.node (.node (.node (.node (.leaf (.trans [(251, .ofNat 1)] 0)) (.nil)) (.nil)) (.nil)) (.nil)) (.nil))))

def rollTable_12 : JTree := .node (.node (.node (.node (.node (.node (.node (.node (.leaf (.atom 29)) (.nil)) (.nil)) (.nil)) (.nil)) (.node (.node (.node (.node (.leaf (.trans [(4997, .negSucc 0), (152627, .negSucc 0), (195529, .negSucc 0), (211109, .negSucc 0), (5320949, .negSucc 0), (5744929, .negSucc 0)] 0)) (.nil)) (.nil)) (.nil)) (.nil))) (.nil)) (.node (.node (.node (.node (.node (.node (.leaf (.trans [(731, .negSucc 0), (22591, .negSucc 0)] 0)) (.nil)) (.nil)) (.nil)) (.nil)) (.nil)) (.nil))) (.node (.nil) (.node (.nil) (.node (.node (.node (.node (.node (.leaf (.trans [(11029, .ofNat 1)] 0)) (.nil)) (.nil)) (.nil)) (.nil)) (.nil))))

def rollTable_13 : JTree := .node (.node (.node (.nil) (.node (.node (.node (.node (.node (.leaf (.trans [(271, .ofNat 1)] 0)) (.nil)) (.nil)) (.nil)) (.nil)) (.nil))) (.node (.nil) (.node (.nil) (.node (.node (.node (.node (.leaf (.trans [(109687, .ofNat 1), (187867, .ofNat 1), (5805887, .ofNat 1)] 0)) (.nil)) (.nil)) (.nil)) (.nil))))) (.node (.node (.node (.node (.node (.node (.node (.leaf (.trans [(713, .ofNat 1), (1073, .negSucc 0)] 0)) (.nil)) (.nil)) (.nil)) (.nil)) (.nil)) (.nil)) (.node (.node (.node (.node (.node (.node (.leaf (.trans [(5263, .ofNat 1)] 0)) (.nil)) (.nil)) (.nil)) (.nil)) (.nil)) (.node (.node (.node (.node (.node (.leaf (.trans [(7279, .ofNat 1), (242351, .negSucc 0)] 0)) (.nil)) (.nil)) (.nil)) (.nil)) (.nil))))

def rollTable_14 : JTree := .node (.node (.node (.nil) (.node (.node (.node (.node (.node (.leaf (.trans [(4997, .ofNat 1)] 0)) (.nil)) (.nil)) (.nil)) (.nil)) (.nil))) (.node (.node (.node (.node (.node (.node (.leaf (.trans [] 0)) (.nil)) (.nil)) (.nil)) (.nil)) (.nil)) (.node (.nil) (.node (.node (.node (.node (.leaf (.trans [(3, .ofNat 1)] 0)) (.nil)) (.nil)) (.nil)) (.nil))))) (.node (.node (.node (.node (.node (.node (.node (.leaf (.trans [] 0)) (.nil)) (.nil)) (.nil)) (.nil)) (.nil)) (.nil)) (.node (.nil) (.node (.node (.node (.node (.node (.leaf (.trans [(1978, .negSucc 0), (2091, .negSucc 0), (71079, .ofNat 1)] 0)) (.nil)) (.nil)) (.nil)) (.nil)) (.nil))))

def rollTable_15 : JTree := .node (.node (.node (.node (.node (.node (.node (.node (.leaf (.trans [(779, .ofNat 1), (21199, .ofNat 1)] 0)) (.nil)) (.nil)) (.nil)) (.nil)) (.nil)) (.nil)) (.node (.node (.node (.node (.node (.node (.leaf (.trans [(18377, .ofNat 1), (43301, .ofNat 1), (1071289, .negSucc 0)] 0)) (.nil)) (.nil)) (.nil)) (.nil)) (.nil)) (.node (.node (.node (.node (.node (.leaf (.trans [] 0)) (.nil)) (.nil)) (.nil)) (.nil)) (.nil)))) (.node (.node (.node (.node (.node (.node (.node (.leaf (.trans [] 0)) (.nil)) (.nil)) (.nil)) (.nil)) (.nil)) (.nil)) (.node (.node (.node (.node (.node (.node (.leaf (.trans [(121049, .ofNat 1)] 0)) (.nil)) (.nil)) (.nil)) (.nil)) (.nil)) (.node (.node (.node (.node (.node (.leaf (.trans [(257, .ofNat 1)] 0)) (.nil)) (.nil)) (.nil)) (.nil)) (.nil))))

def rollTable_16 : JTree := .node (.node (.node (.node (.node (.node (.node (.node (.leaf (.trans [(2, .ofNat 1)] 0)) (.nil)) (.nil)) (.nil)) (.nil)) (.node (.node (.node (.node (.leaf (.trans [(200203, .ofNat 1), (209551, .ofNat 1), (4421819, .ofNat 1), (4963009, .negSucc 0), (5448143, .ofNat 1), (5702531, .ofNat 1)] 0)) (.nil)) (.nil)) (.nil)) (.nil))) (.nil)) (.node (.node (.node (.node (.node (.node (.leaf (.trans [] 0)) (.nil)) (.nil)) (.nil)) (.nil)) (.nil)) (.nil))) (.node (.node (.node (.node (.node (.node (.node (.leaf (.trans [(817, .ofNat 1), (20213, .negSucc 0)] 0)) (.nil)) (.nil)) (.nil)) (.nil)) (.nil)) (.nil)) (.node (.node (.node (.node (.node (.node (.leaf (.trans [(1363, .ofNat 1), (49979, .ofNat 1)] 0)) (.nil)) (.nil)) (.nil)) (.nil)) (.nil)) (.node (.node (.node (.node (.node (.leaf (.trans [(277, .ofNat 1)] 0)) (.nil)) (.nil)) (.nil)) (.nil)) (.nil))))

def rollTable_17 : JTree := .node (.node (.node (.nil) (.node (.node (.node (.node (.node (.leaf (.trans [(102833, .ofNat 1)] 0)) (.nil)) (.nil)) (.nil)) (.nil)) (.nil))) (.node (.node (.node (.node (.node (.node (.leaf (.trans [(817, .ofNat 1), (20213, .negSucc 0)] 0)) (.nil)) (.nil)) (.nil)) (.nil)) (.nil)) (.node (.nil) (.node (.node (.node (.node (.leaf (.trans [] 0)) (.nil)) (.nil)) (.nil)) (.nil))))) (.node (.node (.node (.node (.node (.node (.node (.leaf (.trans [(29, .ofNat 1)] 0)) (.nil)) (.nil)) (.nil)) (.nil)) (.nil)) (.nil)) (.node (.nil) (.node (.node (.node (.node (.node (.leaf (.trans [(268019, .ofNat 1)] 0)) (.nil)) (.nil)) (.nil)) (.nil)) (.nil))))

def rollTable_18 : JTree := .node (.node (.node (.node (.node (.node (.node (.node (.leaf (.atom 41)) (.nil)) (.nil)) (.nil)) (.nil)) (.nil)) (.nil)) (.node (.node (.node (.node (.node (.node (.leaf (.trans [(43, .ofNat 1)] 0)) (.nil)) (.nil)) (.nil)) (.nil)) (.nil)) (.node (.nil) (.node (.node (.node (.node (.leaf (.trans [(2, .ofNat 1)] 0)) (.nil)) (.nil)) (.nil)) (.nil))))) (.node (.node (.node (.node (.node (.node (.node (.leaf (.trans [(551, .ofNat 1)] 0)) (.nil)) (.nil)) (.nil)) (.nil)) (.nil)) (.nil)) (.node (.nil) (.node (.node (.node (.node (.node (.leaf (.trans [(1886, .ofNat 1), (2193, .negSucc 0), (67773, .negSucc 0)] 0)) (.nil)) (.nil)) (.nil)) (.nil)) (.nil))))

def rollTable_19 : JTree := .node (.node (.node (.node (.node (.node (.node (.node (.leaf (.trans [(989, .ofNat 1)] 0)) (.nil)) (.nil)) (.nil)) (.nil)) (.nil)) (.node (.node (.node (.node (.node (.leaf (.trans [(266041, .negSucc 0)] 0)) (.nil)) (.nil)) (.nil)) (.nil)) (.nil))) (.node (.node (.node (.node (.node (.node (.leaf (.trans [(18377, .ofNat 1), (43301, .ofNat 1), (1071289, .negSucc 0)] 0)) (.nil)) (.nil)) (.nil)) (.nil)) (.nil)) (.node (.nil) (.node (.node (.node (.node (.leaf (.trans [(6049, .ofNat 1), (7453, .ofNat 1), (7801, .ofNat 1), (236693, .ofNat 1), (255553, .ofNat 1)] 0)) (.nil)) (.nil)) (.nil)) (.nil))))) (.node (.node (.nil) (.node (.nil) (.node (.nil) (.node (.node (.node (.nil) (.leaf (.atom 263))) (.nil)) (.nil))))) (.node (.node (.node (.node (.node (.node (.leaf (.trans [(51, .ofNat 1)] 0)) (.nil)) (.nil)) (.nil)) (.nil)) (.nil)) (.node (.node (.node (.node (.node (.leaf (.trans [(195529, .ofNat 1), (5320949, .ofNat 1)] 0)) (.nil)) (.nil)) (.nil)) (.nil)) (.nil))))

def rollTable_20 : JTree := .node (.node (.node (.node (.node (.node (.node (.node (.node (.leaf (.atom 23)) (.nil)) (.nil)) (.nil)) (.nil)) (.node (.node (.node (.node (.leaf (.trans [(7279, .ofNat 1), (7859, .ofNat 1), (11357, .ofNat 1), (242351, .negSucc 0), (253667, .negSucc 0), (312707, .ofNat 1)] 0)) (.nil)) (.nil)) (.nil)) (.nil))) (.nil)) (.node (.node (.node (.node (.node (.node (.leaf (.trans [(779, .negSucc 0), (21199, .negSucc 0)] 0)) (.nil)) (.nil)) (.nil)) (.nil)) (.nil)) (.nil))) (.node (.nil) (.node (.nil) (.node (.node (.node (.node (.node (.leaf (.trans [] 0)) (.nil)) (.nil)) (.nil)) (.nil)) (.nil))))) (.node (.node (.node (.nil) (.node (.node (.node (.node (.node (.leaf (.trans [(11567, .negSucc 0)] 0)) (.nil)) (.nil)) (.nil)) (.nil)) (.nil))) (.node (.nil) (.node (.nil) (.node (.node (.node (.node (.leaf (.trans [(2, .ofNat 1)] 0)) (.nil)) (.nil)) (.nil)) (.nil))))) (.node (.node (.node (.node (.node (.node (.node (.leaf (.trans [(1, .ofNat 1)] 0)) (.nil)) (.nil)) (.nil)) (.nil)) (.nil)) (.nil)) (.node (.nil) (.node (.node (.node (.node (.node (.leaf (.trans [(251, .ofNat 1)] 0)) (.nil)) (.nil)) (.nil)) (.nil)) (.nil)))))

def rollTable_21 : JTree := .node (.node (.node (.nil) (.node (.node (.node (.node (.node (.leaf (.trans [(263, .ofNat 1)] 0)) (.nil)) (.nil)) (.nil)) (.nil)) (.nil))) (.node (.node (.node (.node (.node (.node (.leaf (.trans [(989, .negSucc 0)] 0)) (.nil)) (.nil)) (.nil)) (.nil)) (.nil)) (.node (.nil) (.node (.node (.node (.node (.leaf (.trans [(2, .ofNat 1)] 0)) (.nil)) (.nil)) (.nil)) (.nil))))) (.node (.node (.node (.node (.node (.node (.node (.leaf (.trans [(23, .ofNat 1)] 0)) (.nil)) (.nil)) (.nil)) (.nil)) (.nil)) (.nil)) (.node (.nil) (.node (.node (.node (.node (.node (.leaf (.trans [(7859, .ofNat 1), (11357, .ofNat 1), (253667, .negSucc 0), (312707, .ofNat 1)] 0)) (.nil)) (.nil)) (.nil)) (.nil)) (.nil))))

def rollTable_22 : JTree := .node (.node (.node (.node (.node (.node (.node (.node (.leaf (.trans [(697, .ofNat 1), (23693, .negSucc 0)] 0)) (.nil)) (.nil)) (.nil)) (.nil)) (.nil)) (.node (.node (.node (.node (.node (.leaf (.trans [(211109, .ofNat 1), (5744929, .ofNat 1)] 0)) (.nil)) (.nil)) (.nil)) (.nil)) (.nil))) (.node (.node (.node (.node (.node (.node (.leaf (.trans [(53, .negSucc 0)] 0)) (.nil)) (.nil)) (.nil)) (.nil)) (.nil)) (.node (.node (.node (.node (.node (.leaf (.trans [(277, .ofNat 1)] 0)) (.nil)) (.nil)) (.nil)) (.nil)) (.nil)))) (.node (.node (.node (.node (.node (.node (.node (.leaf (.trans [(14467, .negSucc 0), (15283, .negSucc 0)] 0)) (.nil)) (.nil)) (.nil)) (.nil)) (.nil)) (.nil)) (.node (.node (.node (.node (.node (.node (.leaf (.trans [(87, .ofNat 1), (874, .negSucc 0)] 0)) (.nil)) (.nil)) (.nil)) (.nil)) (.nil)) (.node (.node (.node (.node (.node (.leaf (.trans [(200203, .ofNat 1), (5448143, .ofNat 1)] 0)) (.nil)) (.nil)) (.nil)) (.nil)) (.nil))))

def rollTable_23 : JTree := .node (.node (.node (.node (.node (.node (.node (.node (.leaf (.atom 17)) (.nil)) (.nil)) (.nil)) (.nil)) (.node (.node (.node (.node (.leaf (.trans [(98141, .ofNat 1), (105961, .ofNat 1), (209969, .negSucc 0), (219773, .negSucc 0), (4216153, .ofNat 1), (5194741, .ofNat 1), (5205107, .ofNat 1), (5437297, .ofNat 1)] 0)) (.nil)) (.nil)) (.nil)) (.nil))) (.nil)) (.node (.node (.node (.node (.node (.node (.leaf (.trans [(17917, .ofNat 1)] 0)) (.nil)) (.nil)) (.nil)) (.nil)) (.nil)) (.nil))) (.node (.nil) (.node (.nil) (.node (.node (.node (.node (.node (.leaf (.trans [(277, .ofNat 1)] 0)) (.nil)) (.nil)) (.nil)) (.nil)) (.nil))))

def rollTable_24 : JTree := .node (.node (.node (.nil) (.node (.node (.node (.node (.node (.leaf (.trans [(277, .ofNat 1), (7627, .ofNat 1)] 0)) (.nil)) (.nil)) (.nil)) (.nil)) (.nil))) (.node (.node (.node (.node (.node (.node (.leaf (.trans [(1, .ofNat 1)] 0)) (.nil)) (.nil)) (.nil)) (.nil)) (.nil)) (.node (.nil) (.node (.node (.node (.node (.leaf (.trans [(248239, .ofNat 1), (268019, .ofNat 1)] 0)) (.nil)) (.nil)) (.nil)) (.nil))))) (.node (.node (.node (.node (.node (.node (.node (.leaf (.trans [(19, .ofNat 1)] 0)) (.nil)) (.nil)) (.nil)) (.nil)) (.nil)) (.nil)) (.node (.nil) (.node (.node (.node (.node (.node (.leaf (.trans [(98141, .ofNat 1), (209969, .negSucc 0), (5194741, .ofNat 1)] 0)) (.nil)) (.nil)) (.nil)) (.nil)) (.nil))))

def rollTable_25 : JTree := .node (.node (.node (.node (.node (.node (.node (.node (.leaf (.atom 47)) (.nil)) (.nil)) (.nil)) (.nil)) (.nil)) (.nil)) (.node (.node (.node (.node (.node (.node (.leaf (.trans [] 0)) (.nil)) (.nil)) (.nil)) (.nil)) (.nil)) (.node (.nil) (.node (.node (.node (.node (.leaf (.trans [] 0)) (.nil)) (.nil)) (.nil)) (.nil))))) (.node (.node (.node (.node (.node (.node (.node (.leaf (.trans [(1, .ofNat 1)] 0)) (.nil)) (.nil)) (.nil)) (.nil)) (.nil)) (.nil)) (.node (.nil) (.node (.node (.node (.node (.node (.leaf (.trans [(105961, .ofNat 1), (219773, .negSucc 0), (4216153, .ofNat 1), (5205107, .ofNat 1), (5437297, .ofNat 1)] 0)) (.nil)) (.nil)) (.nil)) (.nil)) (.nil))))

def rollTable_26 : JTree := .node (.node (.node (.node (.node (.node (.node (.node (.leaf (.trans [(731, .ofNat 1), (22591, .ofNat 1)] 0)) (.nil)) (.nil)) (.nil)) (.nil)) (.nil)) (.node (.node (.node (.node (.node (.leaf (.trans [(11111, .ofNat 1)] 0)) (.nil)) (.nil)) (.nil)) (.nil)) (.nil))) (.node (.node (.node (.node (.node (.node (.leaf (.trans [(2021, .ofNat 1)] 0)) (.nil)) (.nil)) (.nil)) (.nil)) (.nil)) (.node (.node (.node (.node (.node (.leaf (.trans [(38, .ofNat 1)] 0)) (.nil)) (.nil)) (.nil)) (.nil)) (.node (.nil) (.node (.node (.node (.nil) (.leaf (.atom 277))) (.nil)) (.nil)))))) (.node (.node (.node (.node (.node (.node (.node (.leaf (.trans [(12121, .ofNat 1), (18241, .negSucc 0)] 0)) (.nil)) (.nil)) (.nil)) (.nil)) (.nil)) (.node (.nil) (.node (.nil) (.node (.node (.node (.nil) (.leaf (.atom 271))) (.nil)) (.nil))))) (.node (.node (.node (.node (.node (.node (.leaf (.trans [(69, .ofNat 1), (1102, .ofNat 1)] 0)) (.nil)) (.nil)) (.nil)) (.nil)) (.nil)) (.node (.node (.node (.node (.node (.leaf (.trans [(10537, .ofNat 1)] 0)) (.nil)) (.nil)) (.nil)) (.nil)) (.nil))))

def rollTable_27 : JTree := .node (.node (.node (.node (.node (.node (.node (.node (.leaf (.atom 31)) (.nil)) (.nil)) (.nil)) (.nil)) (.node (.node (.node (.node (.leaf (.trans [(248239, .ofNat 1), (268019, .ofNat 1)] 0)) (.nil)) (.nil)) (.nil)) (.nil))) (.nil)) (.node (.node (.node (.node (.node (.node (.leaf (.trans [(18791, .ofNat 1)] 0)) (.nil)) (.nil)) (.nil)) (.nil)) (.nil)) (.nil))) (.node (.node (.node (.node (.node (.node (.node (.leaf (.atom 251)) (.nil)) (.nil)) (.nil)) (.nil)) (.nil)) (.nil)) (.node (.nil) (.node (.node (.node (.node (.node (.leaf (.trans [(11911, .ofNat 1), (266041, .negSucc 0), (327961, .ofNat 1)] 0)) (.nil)) (.nil)) (.nil)) (.nil)) (.nil))))

def rollTable_28 : JTree := .node (.node (.node (.node (.node (.node (.node (.node (.leaf (.trans [(943, .ofNat 1)] 0)) (.nil)) (.nil)) (.nil)) (.nil)) (.nil)) (.node (.node (.node (.node (.node (.leaf (.trans [(7859, .ofNat 1), (253667, .negSucc 0)] 0)) (.nil)) (.nil)) (.nil)) (.nil)) (.nil))) (.node (.nil) (.node (.nil) (.node (.node (.node (.node (.leaf (.trans [(114931, .ofNat 1), (141607, .ofNat 1), (148219, .ofNat 1), (4497167, .ofNat 1), (4855507, .ofNat 1)] 0)) (.nil)) (.nil)) (.nil)) (.nil))))) (.node (.node (.node (.node (.node (.node (.node (.leaf (.trans [(851, .ofNat 1), (899, .ofNat 1)] 0)) (.nil)) (.nil)) (.nil)) (.nil)) (.nil)) (.nil)) (.node (.node (.node (.node (.node (.node (.leaf (.trans [(277, .ofNat 1)] 0)) (.nil)) (.nil)) (.nil)) (.nil)) (.nil)) (.node (.node (.node (.node (.node (.leaf (.trans [(10291, .ofNat 1)] 0)) (.nil)) (.nil)) (.nil)) (.nil)) (.nil))))

def rollTable_29 : JTree := .node (.node (.node (.nil) (.node (.node (.node (.node (.node (.leaf (.trans [] 0)) (.nil)) (.nil)) (.nil)) (.nil)) (.nil))) (.node (.node (.node (.node (.node (.node (.leaf (.trans [(1, .ofNat 1)] 0)) (.nil)) (.nil)) (.nil)) (.nil)) (.nil)) (.node (.nil) (.node (.node (.node (.node (.leaf (.trans [(7279, .negSucc 0), (242351, .ofNat 1)] 0)) (.nil)) (.nil)) (.nil)) (.nil))))) (.node (.node (.node (.node (.node (.node (.node (.leaf (.trans [(1, .ofNat 1)] 0)) (.nil)) (.nil)) (.nil)) (.nil)) (.nil)) (.nil)) (.node (.nil) (.node (.node (.node (.node (.node (.leaf (.trans [(1394, .ofNat 1), (2967, .negSucc 0), (47386, .negSucc 0)] 0)) (.nil)) (.nil)) (.nil)) (.nil)) (.nil))))

def rollTable_30 : JTree := .node (.node (.node (.node (.node (.node (.node (.node (.leaf (.trans [(437, .ofNat 1)] 0)) (.nil)) (.nil)) (.nil)) (.nil)) (.nil)) (.nil)) (.node (.node (.node (.node (.node (.node (.leaf (.trans [(2279, .ofNat 1)] 0)) (.nil)) (.nil)) (.nil)) (.nil)) (.nil)) (.node (.node (.node (.node (.node (.leaf (.trans [] 0)) (.nil)) (.nil)) (.nil)) (.nil)) (.nil)))) (.node (.node (.node (.node (.node (.node (.node (.leaf (.trans [(851, .ofNat 1), (899, .ofNat 1)] 0)) (.nil)) (.nil)) (.nil)) (.nil)) (.nil)) (.nil)) (.node (.node (.node (.node (.node (.node (.leaf (.trans [(152627, .ofNat 1)] 0)) (.nil)) (.nil)) (.nil)) (.nil)) (.nil)) (.node (.node (.node (.node (.node (.leaf (.trans [(10537, .ofNat 1), (11029, .ofNat 1)] 0)) (.nil)) (.nil)) (.nil)) (.nil)) (.nil))))

/-- Cells as polynomials in sines and cosines. -/
def rollTable : JTree := .node (.node (.node (.node (.node (rollTable_1) (rollTable_2)) (.node (rollTable_3) (rollTable_4))) (.node (rollTable_5) (.node (rollTable_6) (rollTable_7)))) (.node (.node (.node (rollTable_8) (rollTable_9)) (.node (rollTable_10) (rollTable_11))) (.node (.node (rollTable_12) (rollTable_13)) (.node (rollTable_14) (rollTable_15))))) (.node (.node (.node (.node (rollTable_16) (rollTable_17)) (.node (rollTable_18) (rollTable_19))) (.node (rollTable_20) (.node (rollTable_21) (rollTable_22)))) (.node (.node (.node (rollTable_23) (rollTable_24)) (.node (rollTable_25) (rollTable_26))) (.node (.node (rollTable_27) (rollTable_28)) (.node (rollTable_29) (rollTable_30)))))

/-- The primes of cells. -/
def rollPrimes : List (ℕ × ℕ) := [(17, 3), (19, 4), (23, 5), (29, 6), (31, 7), (37, 8), (41, 9), (43, 10), (47, 11), (53, 12), (251, 39), (257, 40), (263, 5049), (269, 5050), (271, 5051), (277, 5083)]


end BP.EL

import Verif.Lemmas.DynamicsSound
import Verif.Lemmas.Rolling

/-!
# The rolling conditions are solved for the dependent speeds, the equations of motion for the accelerations
-/

set_option linter.unusedSimpArgs false

namespace BP.EL

variable {m : ℕ → ℝ}

/-- The dependent ones of nine numbers that fit the rolling conditions, with the right sides `-j`. -/
structure Dependent (m : ℕ → ℝ) (v : Nine ℝ) (j1 j2 j3 j4 j5 : ℝ) : Prop where
  n1 : v.n1 = m 538 * v.n4 - m 539 * v.n6 - m 540 * v.n7 +
    (m 519 * j2 + m 487 * m 496 * j3 - m 504 * j1 - m 533 * j5 - m 487 * m 528 * j4) / m 494
  n2 : v.n2 = -(m 541 * v.n4) + m 542 * v.n6 + m 543 * v.n7 -
    (m 523 * j2 + m 482 * m 496 * j3 - m 509 * j1 - m 534 * j5 - m 482 * m 528 * j4) / m 494
  n3 : v.n3 = m 544 * v.n4 - m 545 * v.n6 - m 546 * v.n7 +
    (m 525 * j2 + m 478 * m 496 * j3 - m 511 * j1 - m 535 * j5 - m 478 * m 528 * j4) / m 494
  n5 : v.n5 = m 547 * v.n4 + m 548 * v.n7 + m 536 * j5 / m 494
  n8 : v.n8 = m 549 * v.n4 - m 550 * v.n6 + m 551 * v.n7 +
    (m 526 * j2 + m 532 * j4 - m 512 * j1 - m 527 * j3 - m 537 * j5) / m 494

/-- The rolling conditions have one solution. -/
theorem roll_unique (heq : ∀ s ∈ body, m s.1 = s.2.val real m) (h : m 494 ≠ 0) (v : Nine ℝ) (j1 j2 j3 j4 j5 : ℝ)
    (r1 : m 1 * v.n1 + m 2 * v.n2 + m 5083 * (v.n5 + v.n6) + j1 = 0)
    (r2 : m 1 * v.n2 - m 2 * v.n1 + j2 = 0)
    (r3 : m 1 * v.n1 + m 2 * v.n2 + m 466 * v.n3 + m 464 * v.n5 + m 463 * v.n8 - m 467 * v.n7 + j3 = 0)
    (r4 : m 1 * v.n2 - m 2 * v.n1 + m 473 * v.n3 + m 472 * v.n4 + m 471 * v.n5 + m 470 * v.n8 + m 474 * v.n7 + j4 = 0)
    (r5 : m 475 * v.n4 + m 476 * v.n5 + m 477 * v.n7 + j5 = 0) : Dependent m v j1 j2 j3 j4 j5 := by
  have E := rollEqs heq
  have V := rollVals heq
  obtain ⟨c1, c2, v28, v33, v32, v34, v30, v23, v24, v25, v26, v27, v29, v31, v224, v225, v227, v228, v456, v457, v458,
    v459, v460, v461, v462, -, -, v465, -, -, v468, v469, -, -, -, -, -⟩ := V
  have pyth : m 1 * m 1 + m 2 * m 2 = 1 := by
    rw [c1, c2]; linear_combination Real.sin_sq_add_cos_sq (m 5033)
  have e487 : m 487 = 0 := by rw [E.e487, v458, v228]; ring
  have e482 : m 482 = 0 := by rw [E.e482, v458, v228]; ring
  have e478 : m 478 = 1 := by rw [E.e478, v457, v456, ← pyth]; ring
  have e492 : m 492 = 0 := by rw [E.e492, v458, v459]; ring
  have e490 : m 490 = -(m 5083 * m 1) := by rw [E.e490, v459, v225, v457]; ring
  have e485 : m 485 = m 5083 * m 2 := by rw [E.e485, v459, v225, v456]; ring
  have e494 : m 494 = -(m 476 * m 480) := by rw [E.e494, e482, e478, e487]; ring
  have h6 : m 476 ≠ 0 := by rintro e; rw [e494, e] at h; simp at h
  have h0 : m 480 ≠ 0 := by rintro e; rw [e494, e] at h; simp at h
  have e533 : m 533 = m 480 * (m 5083 * m 1) := by rw [E.e533, e487, e492, e490]; ring
  have e534 : m 534 = -(m 480 * (m 5083 * m 2)) := by rw [E.e534, e482, e492, e485]; ring
  have e535 : m 535 = m 481 - m 5083 * m 470 := by
    rw [E.e535, e478, e490, e485, E.e489, E.e484, v461, v462, v468, v469]
    linear_combination (-(m 5083 * m 470)) * pyth
  have e536 : m 536 = m 480 := by rw [E.e536, e478, e487, e482]; ring
  have e504 : m 504 = -(m 1 * m 476 * m 480) := by
    rw [E.e504, E.e498, E.e499, E.e501, E.e495, E.e496, E.e480, v457, v458]; ring
  have e509 : m 509 = m 2 * m 476 * m 480 := by
    rw [E.e509, E.e507, E.e499, E.e501, E.e505, E.e496, E.e480, v456, v458]; ring
  have e511 : m 511 = m 476 * m 470 := by
    rw [E.e511, E.e502, E.e507, E.e496, E.e510, E.e498, E.e508, v456, v457, v461, v462, v468, v469]
    linear_combination (m 476 * m 470) * pyth
  have e512 : m 512 = -(m 476 * m 473) := by
    rw [E.e512, E.e495, E.e508, E.e499, E.e510, E.e502, E.e505, v456, v457, v458, v461, v462, v468, v469]
    linear_combination (-(m 476 * m 473)) * pyth
  have e519 : m 519 = -(m 2 * m 476 * m 480) := by
    rw [E.e519, E.e499, E.e515, E.e496, E.e513, E.e502, E.e517, E.e480, v228]; ring
  have e523 : m 523 = -(m 1 * m 476 * m 480) := by
    rw [E.e523, E.e499, E.e522, E.e496, E.e520, E.e508, E.e517, E.e480, v228]; ring
  have e525 : m 525 = m 476 * m 463 := by
    rw [E.e525, E.e502, E.e522, E.e496, E.e524, E.e508, E.e515, v461, v462, v468, v469]
    linear_combination (m 476 * m 463) * pyth
  have e526 : m 526 = -(m 476 * m 466) := by
    rw [E.e526, E.e499, E.e524, E.e508, E.e513, E.e502, E.e520, v461, v462, v468, v469, v228]
    linear_combination (-(m 476 * m 466)) * pyth
  have e527 : m 527 = m 476 * m 473 := by
    rw [E.e527, e478, e487, e482, E.e499]; ring
  have e532 : m 532 = m 466 * m 476 := by rw [E.e532, e478, e487, e482, E.e529]; ring
  have e537 : m 537 = m 479 + m 5083 * m 473 := by
    rw [E.e537, e478, e485, e487, e492, e482, e490, E.e486, E.e491, v461, v462, v468, v469]
    linear_combination (m 5083 * m 473) * pyth
  have e538 : m 538 = m 475 * m 5083 * m 1 / m 476 := by
    rw [E.e538, v460, v465, v224, e533, e487, e494]; field_simp; ring
  have e539 : m 539 = m 5083 * m 1 := by rw [E.e539, v227, e504, e494]; field_simp
  have e540 : m 540 = -(m 477 * m 5083 * m 1) / m 476 := by
    rw [E.e540, e533, e487, e494]; field_simp; ring
  have e541 : m 541 = -(m 475 * m 5083 * m 2) / m 476 := by
    rw [E.e541, v460, v465, v224, e534, e482, e494]; field_simp; ring
  have e542 : m 542 = -(m 5083 * m 2) := by rw [E.e542, v227, e509, e494]; field_simp
  have e543 : m 543 = m 477 * m 5083 * m 2 / m 476 := by
    rw [E.e543, e534, e482, e494]; field_simp; ring
  have u5 : v.n5 = -(m 475 * v.n4 + m 477 * v.n7 + j5) / m 476 := by
    rw [eq_div_iff h6]; linear_combination r5
  have u1 : v.n1 = -(m 1 * (m 5083 * (v.n5 + v.n6) + j1)) + m 2 * j2 := by
    linear_combination m 1 * r1 - m 2 * r2 - v.n1 * pyth
  have u2 : v.n2 = -(m 2 * (m 5083 * (v.n5 + v.n6) + j1)) - m 1 * j2 := by
    linear_combination m 2 * r1 + m 1 * r2 - v.n2 * pyth
  have s3 : m 466 * v.n3 + m 463 * v.n8 = m 5083 * (v.n5 + v.n6) - m 464 * v.n5 + m 467 * v.n7 + j1 - j3 := by
    linear_combination r3 - r1
  have s4 : m 473 * v.n3 + m 470 * v.n8 = -(m 472 * v.n4 + m 471 * v.n5 + m 474 * v.n7) + j2 - j4 := by
    linear_combination r4 - r2
  have u3 : v.n3 = (m 470 * (m 5083 * (v.n5 + v.n6) - m 464 * v.n5 + m 467 * v.n7 + j1 - j3) +
      m 463 * (m 472 * v.n4 + m 471 * v.n5 + m 474 * v.n7 - j2 + j4)) / m 480 := by
    rw [eq_div_iff h0, E.e480]
    linear_combination m 470 * s3 - m 463 * s4
  have u8 : v.n8 = (-(m 466 * (m 472 * v.n4 + m 471 * v.n5 + m 474 * v.n7 - j2 + j4)) -
      m 473 * (m 5083 * (v.n5 + v.n6) - m 464 * v.n5 + m 467 * v.n7 + j1 - j3)) / m 480 := by
    rw [eq_div_iff h0, E.e480]
    linear_combination m 466 * s4 - m 473 * s3
  refine ⟨?_, ?_, ?_, ?_, ?_⟩
  · rw [u1, u5, e538, e539, e540, e519, e487, e504, e533, e494]
    field_simp
    ring
  · rw [u2, u5, e541, e542, e543, e523, e482, e509, e534, e494]
    field_simp
    ring
  · rw [u3, u5, E.e544, E.e545, E.e546, v460, v465, v224, v227, e525, e511, e535, E.e528, E.e496, E.e481, e478, e494]
    field_simp
    ring
  · rw [u5, E.e547, E.e548, e536, e494]
    field_simp
    ring
  · rw [u8, u5, E.e549, E.e550, E.e551, v460, v465, v224, v227, e526, e512, e537, e527, e532, E.e479, e494]
    field_simp
    ring

/-- The equations of motion as a linear form in the independent numbers. -/
theorem dyn_rows_form (heq : ∀ s ∈ body, m s.1 = s.2.val real m)
    (ha : Dependent m (accCells.map m) (m 553) (m 568) (m 620) (m 628) (m 664))
    (hw : Dependent m (otherCells.map m) 0 0 0 0 0) :
    dynRow.val real m =
      m 6014 * (m 949 * m 6004 + m 950 * m 6006 + m 951 * m 6007 + m 945 * m 6009 + m 952) +
      m 6016 * (m 963 * m 6004 + m 964 * m 6006 + m 965 * m 6007 + m 960 * m 6009 + m 966) +
      m 6017 * (m 977 * m 6004 + m 978 * m 6006 + m 979 * m 6007 + m 973 * m 6009 + m 980) +
      m 6019 * (m 981 * m 6004 + m 982 * m 6006 + m 983 * m 6007 + m 905 * m 6009 + m 984) := by
  have D := dynEqs heq
  obtain ⟨b1, b2, b3, b5, b8⟩ := ha
  rw [← D.e665] at b1
  rw [← D.e666] at b2
  rw [← D.e667] at b3
  rw [← D.e668] at b5
  rw [← D.e669] at b8
  obtain ⟨w1, w2, w3, w5, w8⟩ := hw
  simp only [accCells, otherCells, Nine.map, mul_zero, add_zero, sub_zero, zero_div] at b1 b2 b3 b5 b8 w1 w2 w3 w5 w8
  rw [dynRow_val, b1, b2, b3, b5, b8, w1, w2, w3, w5, w8]
  rw [D.e949, D.e950, D.e951, D.e952, D.e963, D.e964, D.e965, D.e966, D.e977, D.e978, D.e979, D.e980, D.e981, D.e982,
    D.e983, D.e984]
  rw [D.e939, D.e940, D.e941, D.e942, D.e943, D.e944, D.e945, D.e946, D.e947, D.e948, D.e953, D.e954, D.e955, D.e956,
    D.e957, D.e958, D.e959, D.e960, D.e961, D.e962, D.e967, D.e968, D.e969, D.e970, D.e971, D.e972, D.e973, D.e974,
    D.e975, D.e976]
  ring

/-- The solution of the four equations. -/
theorem dyn_cramer (heq : ∀ s ∈ body, m s.1 = s.2.val real m) (h : m 1001 ≠ 0) {a4 a6 a7 a9 : ℝ}
    (t4 : m 949 * a4 + m 950 * a6 + m 951 * a7 + m 945 * a9 + m 952 = m 753)
    (t6 : m 963 * a4 + m 964 * a6 + m 965 * a7 + m 960 * a9 + m 966 = m 754)
    (t7 : m 977 * a4 + m 978 * a6 + m 979 * a7 + m 973 * a9 + m 980 = m 755)
    (t9 : m 981 * a4 + m 982 * a6 + m 983 * a7 + m 905 * a9 + m 984 = m 756) :
    a4 = m 5099 ∧ a6 = m 5100 ∧ a7 = m 5101 ∧ a9 = m 5102 := by
  have D := dynEqs heq
  have s4 : m 5099 * m 1001 = m 1005 * m 985 + m 1022 * m 987 - m 1015 * m 986 - m 1026 * m 988 := by
    rw [D.e5099, D.e1030]; field_simp
  have s6 : m 5100 * m 1001 = -(m 1008 * m 985 + m 1023 * m 987 - m 1018 * m 986 - m 1027 * m 988) := by
    rw [D.e5100, D.e1031]; field_simp
  have s7 : m 5101 * m 1001 = m 1010 * m 985 + m 1024 * m 987 - m 1020 * m 986 - m 1028 * m 988 := by
    rw [D.e5101, D.e1032]; field_simp
  have s9 : m 5102 * m 1001 = -(m 1011 * m 985 + m 1025 * m 987 - m 1021 * m 986 - m 1029 * m 988) := by
    rw [D.e5102, D.e1033]; field_simp
  have ed : m 1001 = _ := D.e1001
  rw [D.e989, D.e990, D.e991, D.e992, D.e993, D.e994, D.e995, D.e996, D.e997, D.e998, D.e999, D.e1000] at ed
  rw [D.e1005, D.e1022, D.e1015, D.e1026, D.e1002, D.e1003, D.e1004, D.e997, D.e995, D.e999, D.e1013, D.e1012, D.e1014]
    at s4
  rw [D.e1008, D.e1023, D.e1018, D.e1027, D.e1006, D.e1007, D.e1004, D.e993, D.e991, D.e999, D.e1017, D.e1016, D.e1014]
    at s6
  rw [D.e1010, D.e1024, D.e1020, D.e1028, D.e1007, D.e1009, D.e1003, D.e993, D.e989, D.e997, D.e1017, D.e1019, D.e1013]
    at s7
  rw [D.e1011, D.e1025, D.e1021, D.e1029, D.e1006, D.e1002, D.e1009, D.e991, D.e995, D.e989, D.e1016, D.e1012, D.e1019]
    at s9
  have f4 := D.e985
  have f6 := D.e986
  have f7 := D.e987
  have f9 := D.e988
  refine ⟨?_, ?_, ?_, ?_⟩
  · refine mul_right_cancel₀ h ?_
    rw [s4, f4, f6, f7, f9, ← t4, ← t6, ← t7, ← t9, ed]
    ring
  · refine mul_right_cancel₀ h ?_
    rw [s6, f4, f6, f7, f9, ← t4, ← t6, ← t7, ← t9, ed]
    ring
  · refine mul_right_cancel₀ h ?_
    rw [s7, f4, f6, f7, f9, ← t4, ← t6, ← t7, ← t9, ed]
    ring
  · refine mul_right_cancel₀ h ?_
    rw [s9, f4, f6, f7, f9, ← t4, ← t6, ← t7, ← t9, ed]
    ring

/-- The accelerations that the function computes solve the four equations. -/
theorem dyn_hold (heq : ∀ s ∈ body, m s.1 = s.2.val real m) (h : m 1001 ≠ 0) :
    m 949 * m 5099 + m 950 * m 5100 + m 951 * m 5101 + m 945 * m 5102 + m 952 = m 753 ∧
    m 963 * m 5099 + m 964 * m 5100 + m 965 * m 5101 + m 960 * m 5102 + m 966 = m 754 ∧
    m 977 * m 5099 + m 978 * m 5100 + m 979 * m 5101 + m 973 * m 5102 + m 980 = m 755 ∧
    m 981 * m 5099 + m 982 * m 5100 + m 983 * m 5101 + m 905 * m 5102 + m 984 = m 756 := by
  have D := dynEqs heq
  have s4 : m 5099 * m 1001 = m 1005 * m 985 + m 1022 * m 987 - m 1015 * m 986 - m 1026 * m 988 := by
    rw [D.e5099, D.e1030]; field_simp
  have s6 : m 5100 * m 1001 = -(m 1008 * m 985 + m 1023 * m 987 - m 1018 * m 986 - m 1027 * m 988) := by
    rw [D.e5100, D.e1031]; field_simp
  have s7 : m 5101 * m 1001 = m 1010 * m 985 + m 1024 * m 987 - m 1020 * m 986 - m 1028 * m 988 := by
    rw [D.e5101, D.e1032]; field_simp
  have s9 : m 5102 * m 1001 = -(m 1011 * m 985 + m 1025 * m 987 - m 1021 * m 986 - m 1029 * m 988) := by
    rw [D.e5102, D.e1033]; field_simp
  have ed : m 1001 = _ := D.e1001
  rw [D.e989, D.e990, D.e991, D.e992, D.e993, D.e994, D.e995, D.e996, D.e997, D.e998, D.e999, D.e1000] at ed
  rw [D.e1005, D.e1022, D.e1015, D.e1026, D.e1002, D.e1003, D.e1004, D.e997, D.e995, D.e999, D.e1013, D.e1012, D.e1014]
    at s4
  rw [D.e1008, D.e1023, D.e1018, D.e1027, D.e1006, D.e1007, D.e1004, D.e993, D.e991, D.e999, D.e1017, D.e1016, D.e1014]
    at s6
  rw [D.e1010, D.e1024, D.e1020, D.e1028, D.e1007, D.e1009, D.e1003, D.e993, D.e989, D.e997, D.e1017, D.e1019, D.e1013]
    at s7
  rw [D.e1011, D.e1025, D.e1021, D.e1029, D.e1006, D.e1002, D.e1009, D.e991, D.e995, D.e989, D.e1016, D.e1012, D.e1019]
    at s9
  have f4 := D.e985
  have f6 := D.e986
  have f7 := D.e987
  have f9 := D.e988
  have t4 : m 949 * m 5099 + m 950 * m 5100 + m 951 * m 5101 + m 945 * m 5102 + m 952 = m 753 := by
    refine mul_right_cancel₀ h ?_
    linear_combination m 949 * s4 + m 950 * s6 + m 951 * s7 + m 945 * s9 + m 985 * ed - m 1001 * f4
  have t6 : m 963 * m 5099 + m 964 * m 5100 + m 965 * m 5101 + m 960 * m 5102 + m 966 = m 754 := by
    refine mul_right_cancel₀ h ?_
    linear_combination m 963 * s4 + m 964 * s6 + m 965 * s7 + m 960 * s9 + m 986 * ed - m 1001 * f6
  have t7 : m 977 * m 5099 + m 978 * m 5100 + m 979 * m 5101 + m 973 * m 5102 + m 980 = m 755 := by
    refine mul_right_cancel₀ h ?_
    linear_combination m 977 * s4 + m 978 * s6 + m 979 * s7 + m 973 * s9 + m 987 * ed - m 1001 * f7
  have t9 : m 981 * m 5099 + m 982 * m 5100 + m 983 * m 5101 + m 905 * m 5102 + m 984 = m 756 := by
    refine mul_right_cancel₀ h ?_
    linear_combination m 981 * s4 + m 982 * s6 + m 983 * s7 + m 905 * s9 + m 988 * ed - m 1001 * f9
  exact ⟨t4, t6, t7, t9⟩

end BP.EL

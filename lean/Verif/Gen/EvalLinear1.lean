import Verif.Model.EvalLinear

/-!
# The body of `eval_linear`, part 1

Generated by tools/gen_eval_linear.py from _mooreriderlean2012.py:76-1828.  Do not edit.
-/

namespace BP.EL

open E

/-- _mooreriderlean2012.py:76-229 -/
def part0 : List (ℕ × E) := [
(13, cos lam),
(14, sin lam),
(21, d4 ⊛ z 14),
(22, d4 ⊛ z 13),
(158, d3 ⊹ l3),
(163, d2 ⊹ l4),
(402, g ⊛ mc),
(403, g ⊛ md),
(404, g ⊛ me),
(405, g ⊛ mf),
(406, g ⊛ mg),
(2054, l6 ⊛ z 14),
(2057, z 13 ⊛ z 22 ⊹ z 14 ⊛ z 21),
(2059, ig11 ⊛ z 14),
(2086, md ⊛ rr),
(2130, ig31 ⊛ z 14),
(4119, l6 ⊛ mg),
(4175, k9 ⊛ z 13),
(4176, k9 ⊛ z 14),
(3, cos q4),
(4, sin q4),
(44, pow (z 3) 2 ⊹ pow (z 4) 2),
(119, rr ⊛ z 44),
(5, cos q5),
(7, cos q6),
(6, sin q5),
(8, sin q6),
(54, z 5 ⊛ z 7 ⊝ z 6 ⊛ z 8),
(32, z 3 ⊛ z 5),
(31, z 4 ⊛ z 5),
(45, z 3 ⊛ z 32 ⊹ z 4 ⊛ z 31),
(42, z 3 ⊛ z 6),
(41, z 4 ⊛ z 6),
(49, z 3 ⊛ z 42 ⊹ z 4 ⊛ z 41),
(60, z 7 ⊛ z 45 ⊝ z 8 ⊛ z 49),
(55, z 5 ⊛ z 8 ⊹ z 6 ⊛ z 7),
(63, z 7 ⊛ z 49 ⊹ z 8 ⊛ z 45),
(221, rr ⊛ (z 54 ⊛ z 60 ⊹ z 55 ⊛ z 63)),
(229, z 119 ⊝ z 221),
(460, z 3 ⊛ z 229),
(10, sin q7),
(9, cos q7),
(24, z 6 ⊛ z 9),
(27, z 3 ⊛ z 10 ⊹ z 4 ⊛ z 24),
(26, z 6 ⊛ z 10),
(30, z 3 ⊛ z 26 ⊹ z 4 ⊛ z 9),
(1, cos q3),
(2, sin q3),
(43, pow (z 1) 2 ⊹ pow (z 2) 2),
(82, z 30 ⊛ z 43),
(154, d2 ⊛ z 82),
(52, z 32 ⊛ z 43),
(145, d1 ⊛ z 52),
(118, rr ⊛ z 4 ⊛ z 43),
(126, z 5 ⊛ z 118),
(232, z 154 ⊹ z 10 ⊛ z 145 ⊝ z 9 ⊛ z 126),
(23, z 5 ⊛ z 9),
(29, z 3 ⊛ z 9 ⊝ z 4 ⊛ z 26),
(25, z 5 ⊛ z 10),
(34, z 23 ⊛ z 29 ⊹ z 25 ⊛ z 27),
(33, z 25 ⊛ z 31 ⊝ z 6 ⊛ z 29),
(35, pow (z 33) 2 ⊹ pow (z 34) 2),
(36, hpow (z 35) 1),
(38, z 34 ⊘ z 36),
(40, rf ⊛ z 38),
(253, z 40 ⊛ z 82),
(257, z 232 ⊹ z 253),
(28, z 4 ⊛ z 10 ⊝ z 3 ⊛ z 24),
(81, z 28 ⊛ z 43),
(148, d3 ⊛ z 52 ⊝ d2 ⊛ z 81),
(235, z 148 ⊹ z 9 ⊛ z 145 ⊹ z 10 ⊛ z 126),
(11, cos q8),
(37, z 33 ⊘ z 36),
(39, rf ⊛ z 37),
(12, sin q8),
(89, z 11 ⊛ z 32 ⊹ z 12 ⊛ z 28),
(94, z 43 ⊛ z 89),
(88, z 11 ⊛ z 28 ⊝ z 12 ⊛ z 32),
(90, z 43 ⊛ z 88),
(243, z 11 ⊛ z 39 ⊛ z 94 ⊝ z 11 ⊛ z 40 ⊛ z 90 ⊝ z 12 ⊛ z 39 ⊛ z 90 ⊝ z 12 ⊛ z 40 ⊛ z 94),
(259, z 235 ⊹ z 243),
(127, z 6 ⊛ z 118),
(51, z 4 ⊛ z 43),
(142, d1 ⊛ z 51),
(146, neg (z 127) ⊝ z 142),
(157, d3 ⊛ z 82),
(240, z 146 ⊝ z 157),
(249, z 39 ⊛ z 82),
(262, z 240 ⊝ z 249),
(473, z 27 ⊛ z 257 ⊹ z 29 ⊛ z 259 ⊝ z 31 ⊛ z 262),
(410, z 5 ⊛ z 29),
(415, z 33 ⊛ z 410),
(417, z 415 ⊘ hpow (z 35) 1),
(435, (z 33 ⊛ z 417 ⊝ z 36 ⊛ z 410) ⊘ pow (z 36) 2),
(441, rf ⊛ z 435),
(427, z 34 ⊛ z 417 ⊘ pow (z 36) 2),
(429, rf ⊛ z 427),
(450, z 28 ⊛ z 441 ⊹ z 32 ⊛ z 429),
(412, z 25 ⊛ z 34),
(418, z 412 ⊘ hpow (z 35) 1),
(424, (z 25 ⊛ z 36 ⊝ z 34 ⊛ z 418) ⊘ pow (z 36) 2),
(432, rf ⊛ z 424),
(439, z 33 ⊛ z 418 ⊘ pow (z 36) 2),
(444, rf ⊛ z 439),
(453, z 32 ⊛ z 432 ⊝ z 28 ⊛ z 444),
(448, d2 ⊹ z 40),
(416, z 25 ⊛ z 33),
(420, z 416 ⊘ hpow (z 35) 1),
(437, (z 25 ⊛ z 36 ⊝ z 33 ⊛ z 420) ⊘ pow (z 36) 2),
(443, rf ⊛ z 437),
(428, z 34 ⊛ z 420 ⊘ pow (z 36) 2),
(434, rf ⊛ z 428),
(455, z 28 ⊛ z 443 ⊝ z 32 ⊛ z 434),
(414, z 29 ⊛ z 34),
(419, z 414 ⊘ hpow (z 35) 1),
(426, (z 29 ⊛ z 36 ⊝ z 34 ⊛ z 419) ⊘ pow (z 36) 2),
(433, rf ⊛ z 426),
(440, z 33 ⊛ z 419 ⊘ pow (z 36) 2),
(445, rf ⊛ z 440),
(454, z 32 ⊛ z 433 ⊝ z 28 ⊛ z 445),
(413, n 2 ⊛ z 27 ⊛ z 34 ⊹ n 2 ⊛ z 31 ⊛ z 33),
(422, z 413 ⊘ hpow (z 35) 1),
(438, (n 2 ⊛ z 31 ⊛ z 36 ⊝ z 33 ⊛ z 422) ⊘ pow (z 36) 2),
(442, rf ⊛ z 438),
(425, (n 2 ⊛ z 27 ⊛ z 36 ⊝ z 34 ⊛ z 422) ⊘ pow (z 36) 2),
(431, rf ⊛ z 425),
(452, qt 2 ⊛ z 28 ⊛ z 442 ⊹ qt 2 ⊛ z 32 ⊛ z 431),
(449, d3 ⊹ z 39),
(411, n 2 ⊛ z 23 ⊛ z 34 ⊝ n 2 ⊛ z 6 ⊛ z 33),
(421, z 411 ⊘ hpow (z 35) 1),
(423, (n 2 ⊛ z 23 ⊛ z 36 ⊝ z 34 ⊛ z 421) ⊘ pow (z 36) 2),
(430, rf ⊛ z 423),
(436, (z 33 ⊛ z 421 ⊹ n 2 ⊛ z 6 ⊛ z 36) ⊘ pow (z 36) 2),
(446, rf ⊛ z 436),
(451, qt 2 ⊛ z 32 ⊛ z 430 ⊝ qt 2 ⊛ z 28 ⊛ z 446),
(476, z 450 ⊹ z 4 ⊛ z 5 ⊛ z 9 ⊛ z 453 ⊝ d1 ⊛ z 3 ⊛ z 5 ⊝ z 3 ⊛ z 6 ⊛ z 448 ⊝ z 4 ⊛ z 6 ⊛ z 455 ⊝ z
    6 ⊛ z 9 ⊛ z 454 ⊝ z 6 ⊛ z 10 ⊛ z 452 ⊝ z 3 ⊛ z 5 ⊛ z 9 ⊛ z 449 ⊝ z 4 ⊛ z 5 ⊛ z 10 ⊛ z 451),
(499, z 473 ⊛ z 476),
(83, pow (z 11) 2 ⊹ pow (z 12) 2),
(254, z 40 ⊛ z 83),
(250, z 39 ⊛ z 83),
(463, z 23 ⊛ z 254 ⊝ z 6 ⊛ z 250),
(515, z 2 ⊛ z 463),
(470, z 27 ⊛ z 254 ⊹ z 31 ⊛ z 250),
(496, z 470 ⊛ z 476),
(466, z 6 ⊛ z 262 ⊹ z 23 ⊛ z 257 ⊝ z 25 ⊛ z 259),
(226, rr ⊛ z 51),
(228, z 226 ⊝ z 118),
(125, z 2 ⊛ z 6 ⊝ z 1 ⊛ z 31),
(123, z 1 ⊛ z 41 ⊹ z 2 ⊛ z 5),
(124, z 1 ⊛ z 3)]

/-- _mooreriderlean2012.py:230-396 -/
def part1 : List (ℕ × E) := [
(234, z 9 ⊛ z 123 ⊹ z 10 ⊛ z 124),
(239, z 9 ⊛ z 124 ⊝ z 10 ⊛ z 123),
(462, z 6 ⊛ z 125 ⊹ z 23 ⊛ z 234 ⊝ z 25 ⊛ z 239),
(513, z 2 ⊛ z 466 ⊝ z 228 ⊛ z 462),
(469, z 27 ⊛ z 234 ⊹ z 29 ⊛ z 239 ⊝ z 31 ⊛ z 125),
(502, z 469 ⊛ z 476),
(517, z 228 ⊛ z 463),
(519, z 499 ⊛ z 515 ⊝ z 496 ⊛ z 513 ⊝ z 502 ⊛ z 517),
(46, z 31 ⊛ z 42 ⊝ z 32 ⊛ z 41),
(140, d1 ⊛ z 46),
(77, neg (z 27) ⊛ z 32 ⊝ z 28 ⊛ z 31),
(156, d3 ⊛ z 77),
(241, neg (z 140) ⊝ z 156),
(248, z 39 ⊛ z 77),
(263, z 241 ⊝ z 248),
(153, d2 ⊛ z 77),
(144, d1 ⊛ z 49),
(147, z 119 ⊹ z 144),
(231, z 153 ⊹ z 10 ⊛ z 147),
(252, z 40 ⊛ z 77),
(256, z 231 ⊹ z 252),
(66, z 3 ⊛ z 24 ⊝ z 4 ⊛ z 10),
(80, z 27 ⊛ z 30 ⊹ z 29 ⊛ z 66),
(69, neg (z 3) ⊛ z 26 ⊝ z 4 ⊛ z 9),
(74, z 29 ⊛ z 32 ⊝ z 31 ⊛ z 69),
(151, d3 ⊛ z 80 ⊝ d2 ⊛ z 74),
(237, z 151 ⊹ z 9 ⊛ z 147),
(97, z 11 ⊛ z 80 ⊹ z 12 ⊛ z 74),
(92, z 11 ⊛ z 74 ⊝ z 12 ⊛ z 80),
(246, z 11 ⊛ z 39 ⊛ z 97 ⊝ z 11 ⊛ z 40 ⊛ z 92 ⊝ z 12 ⊛ z 39 ⊛ z 92 ⊝ z 12 ⊛ z 40 ⊛ z 97),
(261, z 237 ⊹ z 246),
(465, z 6 ⊛ z 263 ⊹ z 23 ⊛ z 256 ⊝ z 25 ⊛ z 261),
(58, neg (z 7) ⊛ z 42 ⊝ z 8 ⊛ z 32),
(61, z 43 ⊛ z 58),
(59, z 7 ⊛ z 32 ⊝ z 8 ⊛ z 42),
(64, z 43 ⊛ z 59),
(222, rr ⊛ (z 54 ⊛ z 61 ⊹ z 55 ⊛ z 64)),
(458, z 3 ⊛ z 222),
(219, z 1 ⊛ z 4),
(457, z 3 ⊛ z 124 ⊹ z 4 ⊛ z 219),
(487, neg (z 2) ⊛ z 458 ⊝ z 228 ⊛ z 457),
(224, rr ⊛ z 46),
(498, z 457 ⊛ z 463),
(501, z 458 ⊛ z 463),
(495, z 457 ⊛ z 466 ⊹ z 458 ⊛ z 462),
(504, z 498 ⊛ z 499 ⊹ z 501 ⊛ z 502 ⊝ z 495 ⊛ z 496),
(447, rr ⊛ z 4),
(475, z 447 ⊹ d1 ⊛ z 4 ⊛ z 6 ⊹ z 3 ⊛ z 5 ⊛ z 455 ⊹ z 449 ⊛ (z 3 ⊛ z 10 ⊹ z 4 ⊛ z 24) ⊹ z 453 ⊛ (z
    3 ⊛ z 24 ⊝ z 4 ⊛ z 10) ⊝ z 4 ⊛ z 5 ⊛ z 448 ⊝ z 451 ⊛ (z 3 ⊛ z 26 ⊹ z 4 ⊛ z 9)),
(47, pow (z 5) 2 ⊹ pow (z 41) 2 ⊹ pow (z 42) 2),
(141, d1 ⊛ z 47),
(76, z 5 ⊛ z 23 ⊹ z 27 ⊛ z 41 ⊝ z 28 ⊛ z 42),
(155, d3 ⊛ z 76),
(242, neg (z 141) ⊝ z 155),
(247, z 39 ⊛ z 76),
(264, z 242 ⊝ z 247),
(152, d2 ⊛ z 76),
(48, z 3 ⊛ z 31 ⊝ z 4 ⊛ z 32),
(143, d1 ⊛ z 48),
(230, z 152 ⊹ z 10 ⊛ z 143),
(251, z 40 ⊛ z 76),
(255, z 230 ⊹ z 251),
(67, z 4 ⊛ z 23),
(68, z 3 ⊛ z 23),
(78, z 24 ⊛ z 25 ⊹ z 29 ⊛ z 67 ⊝ z 30 ⊛ z 68),
(71, z 4 ⊛ z 25),
(72, z 3 ⊛ z 25),
(73, z 6 ⊛ z 26 ⊹ z 31 ⊛ z 71 ⊹ z 32 ⊛ z 72),
(149, d3 ⊛ z 78 ⊝ d2 ⊛ z 73),
(236, z 149 ⊹ z 9 ⊛ z 143),
(95, z 11 ⊛ z 78 ⊹ z 12 ⊛ z 73),
(91, z 11 ⊛ z 73 ⊝ z 12 ⊛ z 78),
(244, z 11 ⊛ z 39 ⊛ z 95 ⊝ z 11 ⊛ z 40 ⊛ z 91 ⊝ z 12 ⊛ z 39 ⊛ z 91 ⊝ z 12 ⊛ z 40 ⊛ z 95),
(260, z 236 ⊹ z 244),
(464, z 6 ⊛ z 264 ⊹ z 23 ⊛ z 255 ⊝ z 25 ⊛ z 260),
(471, z 27 ⊛ z 255 ⊹ z 29 ⊛ z 260 ⊝ z 31 ⊛ z 264),
(481, z 464 ⊛ z 470 ⊝ z 463 ⊛ z 471),
(484, z 462 ⊛ z 470 ⊝ z 463 ⊛ z 469),
(225, rr ⊛ z 47),
(62, z 8 ⊛ z 48),
(65, z 7 ⊛ z 48),
(223, rr ⊛ (z 54 ⊛ z 62 ⊝ z 55 ⊛ z 65)),
(459, z 3 ⊛ z 223),
(492, z 225 ⊛ z 458 ⊹ z 228 ⊛ z 459),
(480, z 466 ⊛ z 470 ⊝ z 463 ⊛ z 473),
(490, z 2 ⊛ z 459 ⊝ z 225 ⊛ z 457),
(533, z 481 ⊛ z 487 ⊹ z 484 ⊛ z 492 ⊝ z 480 ⊛ z 490),
(472, z 27 ⊛ z 256 ⊹ z 29 ⊛ z 261 ⊝ z 31 ⊛ z 263),
(528, z 463 ⊛ z 476),
(121, z 2 ⊛ z 3),
(218, z 2 ⊛ z 4),
(456, neg (z 3) ⊛ z 121 ⊝ z 4 ⊛ z 218),
(482, neg (z 1) ⊛ z 458 ⊝ z 228 ⊛ z 456),
(478, z 1 ⊛ z 457 ⊝ z 2 ⊛ z 456),
(122, z 1 ⊛ z 6 ⊹ z 2 ⊛ z 31),
(120, z 1 ⊛ z 5 ⊝ z 2 ⊛ z 41),
(233, z 9 ⊛ z 120 ⊝ z 10 ⊛ z 121),
(238, neg (z 9) ⊛ z 121 ⊝ z 10 ⊛ z 120),
(461, z 6 ⊛ z 122 ⊹ z 23 ⊛ z 233 ⊝ z 25 ⊛ z 238),
(468, z 27 ⊛ z 233 ⊹ z 29 ⊛ z 238 ⊝ z 31 ⊛ z 122),
(489, z 461 ⊛ z 470 ⊝ z 463 ⊛ z 468),
(494, z 476 ⊛ (z 482 ⊛ z 484 ⊝ z 478 ⊛ z 480 ⊝ z 487 ⊛ z 489)),
(538, (z 460 ⊛ z 519 ⊹ z 465 ⊛ z 487 ⊛ z 496 ⊝ z 224 ⊛ z 504 ⊝ z 475 ⊛ z 533 ⊝ z 472 ⊛ z 487 ⊛ z
    528) ⊘ z 494),
(53, pow (z 7) 2 ⊹ pow (z 8) 2),
(227, rr ⊛ z 53),
(539, z 227 ⊛ z 504 ⊘ z 494),
(477, z 5 ⊛ z 9 ⊛ z 452 ⊹ z 449 ⊛ (z 4 ⊛ z 9 ⊹ z 3 ⊛ z 6 ⊛ z 10) ⊹ z 453 ⊛ (z 3 ⊛ z 9 ⊝ z 4 ⊛ z 6
    ⊛ z 10) ⊝ z 5 ⊛ z 10 ⊛ z 454 ⊝ z 451 ⊛ (z 3 ⊛ z 10 ⊹ z 4 ⊛ z 6 ⊛ z 9)),
(79, pow (z 25) 2 ⊹ pow (z 29) 2 ⊹ pow (z 30) 2),
(70, neg (z 3) ⊛ z 10 ⊝ z 4 ⊛ z 24),
(75, z 32 ⊛ z 66 ⊝ z 6 ⊛ z 23 ⊝ z 31 ⊛ z 70),
(150, d3 ⊛ z 79 ⊝ d2 ⊛ z 75),
(96, z 11 ⊛ z 79 ⊹ z 12 ⊛ z 75),
(93, z 11 ⊛ z 75 ⊝ z 12 ⊛ z 79),
(245, z 11 ⊛ z 39 ⊛ z 96 ⊝ z 11 ⊛ z 40 ⊛ z 93 ⊝ z 12 ⊛ z 39 ⊛ z 93 ⊝ z 12 ⊛ z 40 ⊛ z 96),
(258, z 150 ⊹ z 245),
(467, z 25 ⊛ z 258),
(474, z 29 ⊛ z 258),
(540, (z 477 ⊛ z 533 ⊹ z 467 ⊛ z 487 ⊛ z 496 ⊹ z 474 ⊛ z 487 ⊛ z 528) ⊘ z 494),
(5085, z 538 ⊛ u4 ⊝ z 539 ⊛ u6 ⊝ z 540 ⊛ u7),
(5086, u1),
(507, z 456 ⊛ z 463),
(508, z 468 ⊛ z 476),
(505, z 456 ⊛ z 466 ⊹ z 458 ⊛ z 461),
(509, z 499 ⊛ z 507 ⊹ z 501 ⊛ z 508 ⊝ z 496 ⊛ z 505),
(542, z 227 ⊛ z 509 ⊘ z 494),
(485, z 1 ⊛ z 459 ⊝ z 225 ⊛ z 456),
(534, z 481 ⊛ z 482 ⊹ z 489 ⊛ z 492 ⊝ z 480 ⊛ z 485),
(543, (z 477 ⊛ z 534 ⊹ z 467 ⊛ z 482 ⊛ z 496 ⊹ z 474 ⊛ z 482 ⊛ z 528) ⊘ z 494),
(522, z 1 ⊛ z 463),
(520, z 1 ⊛ z 466 ⊝ z 228 ⊛ z 461),
(523, z 499 ⊛ z 522 ⊝ z 496 ⊛ z 520 ⊝ z 508 ⊛ z 517),
(541, (z 460 ⊛ z 523 ⊹ z 465 ⊛ z 482 ⊛ z 496 ⊝ z 224 ⊛ z 509 ⊝ z 475 ⊛ z 534 ⊝ z 472 ⊛ z 482 ⊛ z
    528) ⊘ z 494),
(5087, z 542 ⊛ u6 ⊹ z 543 ⊛ u7 ⊝ z 541 ⊛ u4),
(5088, u2),
(524, z 1 ⊛ z 462 ⊝ z 2 ⊛ z 461),
(525, z 502 ⊛ z 522 ⊝ z 496 ⊛ z 524 ⊝ z 508 ⊛ z 515),
(510, z 456 ⊛ z 462 ⊝ z 457 ⊛ z 461),
(511, z 502 ⊛ z 507 ⊝ z 496 ⊛ z 510 ⊝ z 498 ⊛ z 508),
(535, z 478 ⊛ z 481 ⊹ z 489 ⊛ z 490 ⊝ z 484 ⊛ z 485),
(544, (z 460 ⊛ z 525 ⊹ z 465 ⊛ z 478 ⊛ z 496 ⊝ z 224 ⊛ z 511 ⊝ z 475 ⊛ z 535 ⊝ z 472 ⊛ z 478 ⊛ z
    528) ⊘ z 494),
(545, z 227 ⊛ z 511 ⊘ z 494),
(546, (z 477 ⊛ z 535 ⊹ z 467 ⊛ z 478 ⊛ z 496 ⊹ z 474 ⊛ z 478 ⊛ z 528) ⊘ z 494),
(5089, z 544 ⊛ u4 ⊝ z 545 ⊛ u6 ⊝ z 546 ⊛ u7),
(5090, u3),
(5091, u4),
(536, z 478 ⊛ z 480 ⊹ z 487 ⊛ z 489 ⊝ z 482 ⊛ z 484),
(547, z 475 ⊛ z 536 ⊘ z 494),
(548, z 477 ⊛ z 536 ⊘ z 494),
(5092, z 547 ⊛ u4 ⊹ z 548 ⊛ u7),
(5093, u5),
(5094, u6)]

/-- _mooreriderlean2012.py:397-589 -/
def part2 : List (ℕ × E) := [
(5095, u7),
(526, z 499 ⊛ z 524 ⊹ z 508 ⊛ z 513 ⊝ z 502 ⊛ z 520),
(529, z 466 ⊛ z 476),
(531, z 461 ⊛ z 476),
(530, z 462 ⊛ z 476),
(532, z 478 ⊛ z 529 ⊹ z 487 ⊛ z 531 ⊝ z 482 ⊛ z 530),
(512, z 495 ⊛ z 508 ⊹ z 499 ⊛ z 510 ⊝ z 502 ⊛ z 505),
(527, z 478 ⊛ z 499 ⊹ z 487 ⊛ z 508 ⊝ z 482 ⊛ z 502),
(479, z 466 ⊛ z 471 ⊝ z 464 ⊛ z 473),
(486, z 462 ⊛ z 473 ⊝ z 466 ⊛ z 469),
(488, z 461 ⊛ z 471 ⊝ z 464 ⊛ z 468),
(493, z 461 ⊛ z 469 ⊝ z 462 ⊛ z 468),
(483, z 462 ⊛ z 471 ⊝ z 464 ⊛ z 469),
(491, z 461 ⊛ z 473 ⊝ z 466 ⊛ z 468),
(537, z 478 ⊛ z 479 ⊹ z 485 ⊛ z 486 ⊹ z 487 ⊛ z 488 ⊹ z 492 ⊛ z 493 ⊝ z 482 ⊛ z 483 ⊝ z 490 ⊛ z
    491),
(549, (z 460 ⊛ z 526 ⊹ z 472 ⊛ z 532 ⊝ z 224 ⊛ z 512 ⊝ z 465 ⊛ z 527 ⊝ z 475 ⊛ z 537) ⊘ z 494),
(551, (z 467 ⊛ z 527 ⊹ z 474 ⊛ z 532 ⊝ z 477 ⊛ z 537) ⊘ z 494),
(550, z 227 ⊛ z 512 ⊘ z 494),
(5096, z 549 ⊛ u4 ⊹ z 551 ⊛ u7 ⊝ z 550 ⊛ u6),
(5097, u8),
(5098, u9),
(183, z 13 ⊛ z 123 ⊹ z 14 ⊛ z 125),
(15, sin q9),
(16, z 14 ⊛ z 15),
(19, z 13 ⊛ z 15),
(99, z 13 ⊛ z 16 ⊝ z 14 ⊛ z 19),
(205, l6 ⊛ z 99),
(17, cos q9),
(188, z 17 ⊛ z 124 ⊹ z 19 ⊛ z 125 ⊝ z 16 ⊛ z 123),
(18, z 14 ⊛ z 17),
(20, z 13 ⊛ z 17),
(98, pow (z 15) 2 ⊹ pow (z 18) 2 ⊹ pow (z 20) 2),
(200, l6 ⊛ z 98),
(193, z 20 ⊛ z 125 ⊝ z 15 ⊛ z 124 ⊝ z 18 ⊛ z 123),
(201, l5 ⊛ z 99),
(907, mg ⊛ (z 183 ⊛ z 205 ⊝ z 188 ⊛ z 200 ⊝ z 193 ⊛ z 201)),
(111, z 14 ⊛ z 48),
(857, ig11 ⊛ z 111),
(116, z 20 ⊛ z 48 ⊝ z 15 ⊛ z 47),
(870, ig31 ⊛ z 116),
(114, z 17 ⊛ z 47 ⊹ z 19 ⊛ z 48),
(867, ig22 ⊛ z 114),
(174, z 21 ⊛ z 47),
(177, z 22 ⊛ z 47),
(172, z 21 ⊛ z 48),
(190, z 19 ⊛ z 174 ⊝ z 16 ⊛ z 177 ⊝ z 17 ⊛ z 172),
(198, l5 ⊛ z 116 ⊝ l6 ⊛ z 111),
(213, z 190 ⊹ z 198),
(195, z 15 ⊛ z 172 ⊹ z 20 ⊛ z 174 ⊝ z 18 ⊛ z 177),
(204, l5 ⊛ z 114),
(216, z 195 ⊝ z 204),
(185, z 13 ⊛ z 177 ⊹ z 14 ⊛ z 174),
(208, l6 ⊛ z 114),
(210, z 185 ⊹ z 208),
(903, z 98 ⊛ z 857 ⊹ z 98 ⊛ z 870 ⊹ z 99 ⊛ z 867 ⊝ mg ⊛ (z 200 ⊛ z 213 ⊹ z 201 ⊛ z 216 ⊝ z 205 ⊛ z
    210)),
(182, z 13 ⊛ z 120 ⊹ z 14 ⊛ z 122),
(187, z 19 ⊛ z 122 ⊝ z 16 ⊛ z 120 ⊝ z 17 ⊛ z 121),
(192, z 15 ⊛ z 121 ⊹ z 20 ⊛ z 122 ⊝ z 18 ⊛ z 120),
(906, mg ⊛ (z 182 ⊛ z 205 ⊝ z 187 ⊛ z 200 ⊝ z 192 ⊛ z 201)),
(106, z 14 ⊛ z 32 ⊝ z 13 ⊛ z 42),
(110, z 43 ⊛ z 106),
(856, ig11 ⊛ z 110),
(108, z 18 ⊛ z 42 ⊹ z 20 ⊛ z 32 ⊝ z 4 ⊛ z 15),
(115, z 43 ⊛ z 108),
(869, ig31 ⊛ z 115),
(107, z 4 ⊛ z 17 ⊹ z 16 ⊛ z 42 ⊹ z 19 ⊛ z 32),
(112, z 43 ⊛ z 107),
(865, ig22 ⊛ z 112),
(50, z 42 ⊛ z 43),
(171, z 22 ⊛ z 50 ⊝ z 21 ⊛ z 52),
(175, z 21 ⊛ z 51),
(180, z 175 ⊝ z 127),
(178, z 22 ⊛ z 51),
(179, z 178 ⊝ z 126),
(191, z 17 ⊛ z 171 ⊹ z 19 ⊛ z 180 ⊝ z 16 ⊛ z 179),
(197, l5 ⊛ z 115 ⊝ l6 ⊛ z 110),
(214, z 191 ⊹ z 197),
(196, z 20 ⊛ z 180 ⊝ z 15 ⊛ z 171 ⊝ z 18 ⊛ z 179),
(202, l5 ⊛ z 112),
(217, z 196 ⊝ z 202),
(186, z 13 ⊛ z 179 ⊹ z 14 ⊛ z 180),
(206, l6 ⊛ z 112),
(211, z 186 ⊹ z 206),
(902, z 98 ⊛ z 856 ⊹ z 98 ⊛ z 869 ⊹ z 99 ⊛ z 865 ⊝ mg ⊛ (z 200 ⊛ z 214 ⊹ z 201 ⊛ z 217 ⊝ z 205 ⊛ z
    211)),
(983, z 543 ⊛ z 907 ⊹ z 548 ⊛ z 903 ⊝ z 540 ⊛ z 906 ⊝ z 546 ⊛ z 902),
(791, id22 ⊛ z 53),
(893, z 53 ⊛ z 791),
(921, z 51 ⊛ z 791),
(956, z 893 ⊝ z 545 ⊛ z 921),
(914, md ⊹ mc ⊛ (pow (z 123) 2 ⊹ pow (z 124) 2 ⊹ pow (z 125) 2) ⊹ me ⊛ (pow (z 123) 2 ⊹ pow (z
    124) 2 ⊹ pow (z 125) 2) ⊹ mf ⊛ (pow (z 123) 2 ⊹ pow (z 124) 2 ⊹ pow (z 125) 2) ⊹ mg ⊛ (pow (z
    183) 2 ⊹ pow (z 188) 2 ⊹ pow (z 193) 2)),
(910, mg ⊛ (z 182 ⊛ z 183 ⊹ z 187 ⊛ z 188 ⊹ z 192 ⊛ z 193) ⊝ mc ⊛ (z 121 ⊛ z 124 ⊝ z 120 ⊛ z 123 ⊝
    z 122 ⊛ z 125) ⊝ me ⊛ (z 121 ⊛ z 124 ⊝ z 120 ⊛ z 123 ⊝ z 122 ⊛ z 125) ⊝ mf ⊛ (z 121 ⊛ z 124 ⊝
    z 120 ⊛ z 123 ⊝ z 122 ⊛ z 125)),
(136, l2 ⊛ z 51),
(137, z 136 ⊝ z 126),
(130, l1 ⊛ z 52 ⊹ l2 ⊛ z 50),
(133, l1 ⊛ z 51),
(138, neg (z 127) ⊝ z 133),
(169, z 158 ⊛ z 82),
(159, z 158 ⊛ z 52 ⊝ d2 ⊛ z 81 ⊝ l4 ⊛ z 81),
(166, z 163 ⊛ z 82),
(916, mc ⊛ (z 123 ⊛ z 137 ⊹ z 124 ⊛ z 130 ⊹ z 125 ⊛ z 138) ⊹ mg ⊛ (z 183 ⊛ z 211 ⊹ z 188 ⊛ z 214 ⊹
    z 193 ⊛ z 217) ⊝ md ⊛ z 2 ⊛ z 118 ⊝ me ⊛ (z 123 ⊛ z 126 ⊹ z 125 ⊛ z 169 ⊹ z 10 ⊛ z 123 ⊛ z 159
    ⊝ z 124 ⊛ z 145 ⊝ z 125 ⊛ z 146 ⊝ z 9 ⊛ z 123 ⊛ z 166 ⊝ z 9 ⊛ z 124 ⊛ z 159 ⊝ z 10 ⊛ z 124 ⊛ z
    166) ⊝ mf ⊛ (z 123 ⊛ z 126 ⊹ z 125 ⊛ z 157 ⊹ z 10 ⊛ z 123 ⊛ z 148 ⊝ z 124 ⊛ z 145 ⊝ z 125 ⊛ z
    146 ⊝ z 9 ⊛ z 123 ⊛ z 154 ⊝ z 9 ⊛ z 124 ⊛ z 148 ⊝ z 10 ⊛ z 124 ⊛ z 154)),
(958, z 542 ⊛ z 914 ⊝ z 539 ⊛ z 910 ⊝ z 545 ⊛ z 916),
(909, md ⊹ mc ⊛ (pow (z 120) 2 ⊹ pow (z 121) 2 ⊹ pow (z 122) 2) ⊹ me ⊛ (pow (z 120) 2 ⊹ pow (z
    121) 2 ⊹ pow (z 122) 2) ⊹ mf ⊛ (pow (z 120) 2 ⊹ pow (z 121) 2 ⊹ pow (z 122) 2) ⊹ mg ⊛ (pow (z
    182) 2 ⊹ pow (z 187) 2 ⊹ pow (z 192) 2)),
(912, mg ⊛ (z 182 ⊛ z 211 ⊹ z 187 ⊛ z 214 ⊹ z 192 ⊛ z 217) ⊹ me ⊛ (z 122 ⊛ z 146 ⊹ z 9 ⊛ z 120 ⊛ z
    166 ⊝ z 120 ⊛ z 126 ⊝ z 121 ⊛ z 145 ⊝ z 122 ⊛ z 169 ⊝ z 9 ⊛ z 121 ⊛ z 159 ⊝ z 10 ⊛ z 120 ⊛ z
    159 ⊝ z 10 ⊛ z 121 ⊛ z 166) ⊹ mf ⊛ (z 122 ⊛ z 146 ⊹ z 9 ⊛ z 120 ⊛ z 154 ⊝ z 120 ⊛ z 126 ⊝ z
    121 ⊛ z 145 ⊝ z 122 ⊛ z 157 ⊝ z 9 ⊛ z 121 ⊛ z 148 ⊝ z 10 ⊛ z 120 ⊛ z 148 ⊝ z 10 ⊛ z 121 ⊛ z
    154) ⊝ md ⊛ z 1 ⊛ z 118 ⊝ mc ⊛ (z 121 ⊛ z 130 ⊝ z 120 ⊛ z 137 ⊝ z 122 ⊛ z 138)),
(957, z 542 ⊛ z 910 ⊝ z 539 ⊛ z 909 ⊝ z 545 ⊛ z 912),
(790, id22 ⊛ z 51),
(892, z 53 ⊛ z 790),
(761, ic11 ⊛ z 50),
(768, ic22 ⊛ z 51),
(776, ic33 ⊛ z 52),
(811, ie31 ⊛ z 81),
(822, ie33 ⊛ z 52),
(785, id11 ⊛ z 61),
(794, id11 ⊛ z 64),
(806, ie11 ⊛ z 81),
(817, ie31 ⊛ z 52),
(815, ie22 ⊛ z 82),
(840, if22 ⊛ z 82),
(833, if11 ⊛ z 90),
(843, if11 ⊛ z 94),
(861, ig31 ⊛ z 110),
(873, ig33 ⊛ z 115),
(772, ic31 ⊛ z 52),
(764, ic31 ⊛ z 50),
(919, z 50 ⊛ z 761 ⊹ z 51 ⊛ z 768 ⊹ z 51 ⊛ z 790 ⊹ z 52 ⊛ z 776 ⊹ z 52 ⊛ z 811 ⊹ z 52 ⊛ z 822 ⊹ z
    61 ⊛ z 785 ⊹ z 64 ⊛ z 794 ⊹ z 81 ⊛ z 806 ⊹ z 81 ⊛ z 817 ⊹ z 82 ⊛ z 815 ⊹ z 82 ⊛ z 840 ⊹ z 90 ⊛
    z 833 ⊹ z 94 ⊛ z 843 ⊹ z 110 ⊛ z 856 ⊹ z 110 ⊛ z 869 ⊹ z 112 ⊛ z 865 ⊹ z 115 ⊛ z 861 ⊹ z 115 ⊛
    z 873 ⊹ md ⊛ pow (z 118) 2 ⊹ mc ⊛ (pow (z 130) 2 ⊹ pow (z 137) 2 ⊹ pow (z 138) 2) ⊹ mg ⊛ (pow
    (z 211) 2 ⊹ pow (z 214) 2 ⊹ pow (z 217) 2) ⊝ z 50 ⊛ z 772 ⊝ z 52 ⊛ z 764 ⊝ me ⊛ (n 2 ⊛ z 146 ⊛
    z 169 ⊹ n 2 ⊛ z 9 ⊛ z 126 ⊛ z 166 ⊝ pow (z 126) 2 ⊝ pow (z 145) 2 ⊝ pow (z 146) 2 ⊝ pow (z
    159) 2 ⊝ pow (z 166) 2 ⊝ pow (z 169) 2 ⊝ n 2 ⊛ z 9 ⊛ z 145 ⊛ z 159 ⊝ n 2 ⊛ z 10 ⊛ z 126 ⊛ z
    159 ⊝ n 2 ⊛ z 10 ⊛ z 145 ⊛ z 166) ⊝ mf ⊛ (n 2 ⊛ z 146 ⊛ z 157 ⊹ n 2 ⊛ z 9 ⊛ z 126 ⊛ z 154 ⊝
    pow (z 126) 2 ⊝ pow (z 145) 2 ⊝ pow (z 146) 2 ⊝ pow (z 148) 2 ⊝ pow (z 154) 2 ⊝ pow (z 157) 2
    ⊝ n 2 ⊛ z 9 ⊛ z 145 ⊛ z 148 ⊝ n 2 ⊛ z 10 ⊛ z 126 ⊛ z 148 ⊝ n 2 ⊛ z 10 ⊛ z 145 ⊛ z 154)),
(936, z 83 ⊛ z 840),
(955, z 892 ⊹ z 542 ⊛ z 916 ⊝ z 539 ⊛ z 912 ⊝ z 545 ⊛ z 919 ⊝ z 550 ⊛ z 936),
(841, if22 ⊛ z 83),
(923, z 82 ⊛ z 841),
(937, z 83 ⊛ z 841),
(961, neg (z 545) ⊛ z 923 ⊝ z 550 ⊛ z 937),
(964, z 956 ⊹ z 542 ⊛ z 958 ⊝ z 539 ⊛ z 957 ⊝ z 545 ⊛ z 955 ⊝ z 550 ⊛ z 961),
(854, ig11 ⊛ z 98),
(864, ig22 ⊛ z 99),
(859, ig31 ⊛ z 98),
(932, z 111 ⊛ z 854 ⊹ z 114 ⊛ z 864 ⊹ z 116 ⊛ z 859 ⊝ mg ⊛ (z 200 ⊛ z 213 ⊹ z 201 ⊛ z 216 ⊝ z 205
    ⊛ z 210)),
(924, z 110 ⊛ z 854 ⊹ z 112 ⊛ z 864 ⊹ z 115 ⊛ z 859 ⊝ mg ⊛ (z 200 ⊛ z 214 ⊹ z 201 ⊛ z 217 ⊝ z 205
    ⊛ z 211)),
(973, z 543 ⊛ z 907 ⊹ z 548 ⊛ z 932 ⊝ z 540 ⊛ z 906 ⊝ z 546 ⊛ z 924),
(960, z 542 ⊛ z 907 ⊝ z 539 ⊛ z 906 ⊝ z 545 ⊛ z 924),
(929, z 47 ⊛ z 791),
(974, z 548 ⊛ z 929 ⊝ z 546 ⊛ z 921),
(161, z 158 ⊛ z 79 ⊝ d2 ⊛ z 75 ⊝ l4 ⊛ z 75),
(900, (me ⊛ z 161 ⊹ mf ⊛ z 150) ⊛ (z 9 ⊛ z 124 ⊝ z 10 ⊛ z 123)),
(135, l2 ⊛ z 47),
(128, l1 ⊛ z 48),
(132, l1 ⊛ z 47),
(167, z 158 ⊛ z 76),
(160, z 158 ⊛ z 78 ⊝ d2 ⊛ z 73 ⊝ l4 ⊛ z 73),
(164, z 163 ⊛ z 76),
(915, mg ⊛ (z 183 ⊛ z 210 ⊹ z 188 ⊛ z 213 ⊹ z 193 ⊛ z 216) ⊹ mc ⊛ (z 123 ⊛ z 135 ⊹ z 124 ⊛ z 128 ⊝
    z 125 ⊛ z 132) ⊝ me ⊛ (z 125 ⊛ z 141 ⊹ z 125 ⊛ z 167 ⊹ z 10 ⊛ z 123 ⊛ z 160 ⊝ z 124 ⊛ z 143 ⊝
    z 9 ⊛ z 123 ⊛ z 164 ⊝ z 9 ⊛ z 124 ⊛ z 160 ⊝ z 10 ⊛ z 124 ⊛ z 164) ⊝ mf ⊛ (z 125 ⊛ z 141 ⊹ z
    125 ⊛ z 155 ⊹ z 10 ⊛ z 123 ⊛ z 149 ⊝ z 124 ⊛ z 143 ⊝ z 9 ⊛ z 123 ⊛ z 152 ⊝ z 9 ⊛ z 124 ⊛ z 149
    ⊝ z 10 ⊛ z 124 ⊛ z 152)),
(972, z 900 ⊹ z 543 ⊛ z 914 ⊹ z 548 ⊛ z 915 ⊝ z 540 ⊛ z 910 ⊝ z 546 ⊛ z 916)]

/-- _mooreriderlean2012.py:590-741 -/
def part3 : List (ℕ × E) := [
(911, mg ⊛ (z 182 ⊛ z 210 ⊹ z 187 ⊛ z 213 ⊹ z 192 ⊛ z 216) ⊹ mc ⊛ (z 120 ⊛ z 135 ⊝ z 121 ⊛ z 128 ⊝
    z 122 ⊛ z 132) ⊹ me ⊛ (z 9 ⊛ z 120 ⊛ z 164 ⊝ z 121 ⊛ z 143 ⊝ z 122 ⊛ z 141 ⊝ z 122 ⊛ z 167 ⊝ z
    9 ⊛ z 121 ⊛ z 160 ⊝ z 10 ⊛ z 120 ⊛ z 160 ⊝ z 10 ⊛ z 121 ⊛ z 164) ⊹ mf ⊛ (z 9 ⊛ z 120 ⊛ z 152 ⊝
    z 121 ⊛ z 143 ⊝ z 122 ⊛ z 141 ⊝ z 122 ⊛ z 155 ⊝ z 9 ⊛ z 121 ⊛ z 149 ⊝ z 10 ⊛ z 120 ⊛ z 149 ⊝ z
    10 ⊛ z 121 ⊛ z 152)),
(899, (me ⊛ z 161 ⊹ mf ⊛ z 150) ⊛ (z 9 ⊛ z 121 ⊹ z 10 ⊛ z 120)),
(971, z 543 ⊛ z 910 ⊹ z 548 ⊛ z 911 ⊝ z 899 ⊝ z 540 ⊛ z 909 ⊝ z 546 ⊛ z 912),
(898, z 75 ⊛ z 806 ⊹ z 75 ⊛ z 817 ⊹ z 79 ⊛ z 811 ⊹ z 79 ⊛ z 822 ⊹ z 93 ⊛ z 833 ⊹ z 96 ⊛ z 843 ⊹ me
    ⊛ z 161 ⊛ (z 159 ⊹ z 9 ⊛ z 145 ⊹ z 10 ⊛ z 126) ⊹ mf ⊛ z 150 ⊛ (z 148 ⊹ z 9 ⊛ z 145 ⊹ z 10 ⊛ z
    126)),
(927, z 47 ⊛ z 768 ⊹ z 47 ⊛ z 790 ⊹ z 48 ⊛ z 776 ⊹ z 65 ⊛ z 794 ⊹ z 73 ⊛ z 806 ⊹ z 73 ⊛ z 817 ⊹ z
    76 ⊛ z 815 ⊹ z 76 ⊛ z 840 ⊹ z 78 ⊛ z 811 ⊹ z 78 ⊛ z 822 ⊹ z 91 ⊛ z 833 ⊹ z 95 ⊛ z 843 ⊹ z 111
    ⊛ z 856 ⊹ z 111 ⊛ z 869 ⊹ z 114 ⊛ z 865 ⊹ z 116 ⊛ z 861 ⊹ z 116 ⊛ z 873 ⊹ mg ⊛ (z 210 ⊛ z 211
    ⊹ z 213 ⊛ z 214 ⊹ z 216 ⊛ z 217) ⊝ z 48 ⊛ z 764 ⊝ z 62 ⊛ z 785 ⊝ mc ⊛ (z 132 ⊛ z 138 ⊝ z 128 ⊛
    z 130 ⊝ z 135 ⊛ z 137) ⊝ me ⊛ (z 141 ⊛ z 146 ⊹ z 146 ⊛ z 167 ⊹ z 9 ⊛ z 126 ⊛ z 164 ⊝ z 141 ⊛ z
    169 ⊝ z 143 ⊛ z 145 ⊝ z 159 ⊛ z 160 ⊝ z 164 ⊛ z 166 ⊝ z 167 ⊛ z 169 ⊝ z 9 ⊛ z 143 ⊛ z 159 ⊝ z
    9 ⊛ z 145 ⊛ z 160 ⊝ z 10 ⊛ z 126 ⊛ z 160 ⊝ z 10 ⊛ z 143 ⊛ z 166 ⊝ z 10 ⊛ z 145 ⊛ z 164) ⊝ mf ⊛
    (z 141 ⊛ z 146 ⊹ z 146 ⊛ z 155 ⊹ z 9 ⊛ z 126 ⊛ z 152 ⊝ z 141 ⊛ z 157 ⊝ z 143 ⊛ z 145 ⊝ z 148 ⊛
    z 149 ⊝ z 152 ⊛ z 154 ⊝ z 155 ⊛ z 157 ⊝ z 9 ⊛ z 143 ⊛ z 148 ⊝ z 9 ⊛ z 145 ⊛ z 149 ⊝ z 10 ⊛ z
    126 ⊛ z 149 ⊝ z 10 ⊛ z 143 ⊛ z 154 ⊝ z 10 ⊛ z 145 ⊛ z 152)),
(970, z 898 ⊹ z 543 ⊛ z 916 ⊹ z 548 ⊛ z 927 ⊹ z 551 ⊛ z 936 ⊝ z 540 ⊛ z 912 ⊝ z 546 ⊛ z 919),
(931, z 76 ⊛ z 841),
(975, z 548 ⊛ z 931 ⊹ z 551 ⊛ z 937 ⊝ z 546 ⊛ z 923),
(978, z 974 ⊹ z 542 ⊛ z 972 ⊝ z 539 ⊛ z 971 ⊝ z 545 ⊛ z 970 ⊝ z 550 ⊛ z 975),
(1003, z 964 ⊛ z 973 ⊝ z 960 ⊛ z 978),
(905, z 98 ⊛ z 854 ⊹ z 99 ⊛ z 864 ⊹ mg ⊛ (pow (z 200) 2 ⊹ pow (z 201) 2 ⊹ pow (z 205) 2)),
(805, ie11 ⊛ z 75),
(819, ie31 ⊛ z 79),
(810, ie31 ⊛ z 75),
(824, ie33 ⊛ z 79),
(836, if11 ⊛ z 93),
(845, if11 ⊛ z 96),
(897, z 75 ⊛ z 805 ⊹ z 75 ⊛ z 819 ⊹ z 79 ⊛ z 810 ⊹ z 79 ⊛ z 824 ⊹ z 93 ⊛ z 836 ⊹ z 96 ⊛ z 845 ⊹ me
    ⊛ pow (z 161) 2 ⊹ mf ⊛ pow (z 150) 2),
(930, z 73 ⊛ z 805 ⊹ z 73 ⊛ z 819 ⊹ z 78 ⊛ z 810 ⊹ z 78 ⊛ z 824 ⊹ z 91 ⊛ z 836 ⊹ z 95 ⊛ z 845 ⊹ me
    ⊛ z 161 ⊛ (z 160 ⊹ z 9 ⊛ z 143) ⊹ mf ⊛ z 150 ⊛ (z 149 ⊹ z 9 ⊛ z 143)),
(922, z 52 ⊛ z 810 ⊹ z 52 ⊛ z 824 ⊹ z 81 ⊛ z 805 ⊹ z 81 ⊛ z 819 ⊹ z 90 ⊛ z 836 ⊹ z 94 ⊛ z 845 ⊹ me
    ⊛ z 161 ⊛ (z 159 ⊹ z 9 ⊛ z 145 ⊹ z 10 ⊛ z 126) ⊹ mf ⊛ z 150 ⊛ (z 148 ⊹ z 9 ⊛ z 145 ⊹ z 10 ⊛ z
    126)),
(969, z 897 ⊹ z 540 ⊛ z 899 ⊹ z 543 ⊛ z 900 ⊹ z 548 ⊛ z 930 ⊝ z 546 ⊛ z 922),
(803, ie11 ⊛ z 73),
(818, ie31 ⊛ z 78),
(808, ie31 ⊛ z 73),
(823, ie33 ⊛ z 78),
(834, if11 ⊛ z 91),
(844, if11 ⊛ z 95),
(895, z 75 ⊛ z 803 ⊹ z 75 ⊛ z 818 ⊹ z 79 ⊛ z 808 ⊹ z 79 ⊛ z 823 ⊹ z 93 ⊛ z 834 ⊹ z 96 ⊛ z 844 ⊹ me
    ⊛ z 161 ⊛ (z 160 ⊹ z 9 ⊛ z 143) ⊹ mf ⊛ z 150 ⊛ (z 149 ⊹ z 9 ⊛ z 143)),
(767, ic22 ⊛ z 47),
(789, id22 ⊛ z 47),
(774, ic33 ⊛ z 48),
(786, id11 ⊛ z 62),
(795, id11 ⊛ z 65),
(813, ie22 ⊛ z 76),
(838, if22 ⊛ z 76),
(862, ig31 ⊛ z 111),
(874, ig33 ⊛ z 116),
(928, z 47 ⊛ z 767 ⊹ z 47 ⊛ z 789 ⊹ z 48 ⊛ z 774 ⊹ z 62 ⊛ z 786 ⊹ z 65 ⊛ z 795 ⊹ z 73 ⊛ z 803 ⊹ z
    73 ⊛ z 818 ⊹ z 76 ⊛ z 813 ⊹ z 76 ⊛ z 838 ⊹ z 78 ⊛ z 808 ⊹ z 78 ⊛ z 823 ⊹ z 91 ⊛ z 834 ⊹ z 95 ⊛
    z 844 ⊹ z 111 ⊛ z 857 ⊹ z 111 ⊛ z 870 ⊹ z 114 ⊛ z 867 ⊹ z 116 ⊛ z 862 ⊹ z 116 ⊛ z 874 ⊹ mc ⊛
    (pow (z 128) 2 ⊹ pow (z 132) 2 ⊹ pow (z 135) 2) ⊹ mg ⊛ (pow (z 210) 2 ⊹ pow (z 213) 2 ⊹ pow (z
    216) 2) ⊹ me ⊛ (pow (z 141) 2 ⊹ pow (z 143) 2 ⊹ pow (z 160) 2 ⊹ pow (z 164) 2 ⊹ pow (z 167) 2
    ⊹ n 2 ⊛ z 141 ⊛ z 167 ⊹ n 2 ⊛ z 9 ⊛ z 143 ⊛ z 160 ⊹ n 2 ⊛ z 10 ⊛ z 143 ⊛ z 164) ⊹ mf ⊛ (pow (z
    141) 2 ⊹ pow (z 143) 2 ⊹ pow (z 149) 2 ⊹ pow (z 152) 2 ⊹ pow (z 155) 2 ⊹ n 2 ⊛ z 141 ⊛ z 155 ⊹
    n 2 ⊛ z 9 ⊛ z 143 ⊛ z 149 ⊹ n 2 ⊛ z 10 ⊛ z 143 ⊛ z 152)),
(934, z 83 ⊛ z 838),
(770, ic31 ⊛ z 48),
(920, z 51 ⊛ z 767 ⊹ z 51 ⊛ z 789 ⊹ z 52 ⊛ z 774 ⊹ z 52 ⊛ z 808 ⊹ z 52 ⊛ z 823 ⊹ z 64 ⊛ z 795 ⊹ z
    81 ⊛ z 803 ⊹ z 81 ⊛ z 818 ⊹ z 82 ⊛ z 813 ⊹ z 82 ⊛ z 838 ⊹ z 90 ⊛ z 834 ⊹ z 94 ⊛ z 844 ⊹ z 110
    ⊛ z 857 ⊹ z 110 ⊛ z 870 ⊹ z 112 ⊛ z 867 ⊹ z 115 ⊛ z 862 ⊹ z 115 ⊛ z 874 ⊹ mg ⊛ (z 210 ⊛ z 211
    ⊹ z 213 ⊛ z 214 ⊹ z 216 ⊛ z 217) ⊝ z 50 ⊛ z 770 ⊝ z 61 ⊛ z 786 ⊝ mc ⊛ (z 132 ⊛ z 138 ⊝ z 128 ⊛
    z 130 ⊝ z 135 ⊛ z 137) ⊝ me ⊛ (z 141 ⊛ z 146 ⊹ z 146 ⊛ z 167 ⊹ z 9 ⊛ z 126 ⊛ z 164 ⊝ z 141 ⊛ z
    169 ⊝ z 143 ⊛ z 145 ⊝ z 159 ⊛ z 160 ⊝ z 164 ⊛ z 166 ⊝ z 167 ⊛ z 169 ⊝ z 9 ⊛ z 143 ⊛ z 159 ⊝ z
    9 ⊛ z 145 ⊛ z 160 ⊝ z 10 ⊛ z 126 ⊛ z 160 ⊝ z 10 ⊛ z 143 ⊛ z 166 ⊝ z 10 ⊛ z 145 ⊛ z 164) ⊝ mf ⊛
    (z 141 ⊛ z 146 ⊹ z 146 ⊛ z 155 ⊹ z 9 ⊛ z 126 ⊛ z 152 ⊝ z 141 ⊛ z 157 ⊝ z 143 ⊛ z 145 ⊝ z 148 ⊛
    z 149 ⊝ z 152 ⊛ z 154 ⊝ z 155 ⊛ z 157 ⊝ z 9 ⊛ z 143 ⊛ z 148 ⊝ z 9 ⊛ z 145 ⊛ z 149 ⊝ z 10 ⊛ z
    126 ⊛ z 149 ⊝ z 10 ⊛ z 143 ⊛ z 154 ⊝ z 10 ⊛ z 145 ⊛ z 152)),
(967, z 895 ⊹ z 543 ⊛ z 915 ⊹ z 548 ⊛ z 928 ⊹ z 551 ⊛ z 934 ⊝ z 540 ⊛ z 911 ⊝ z 546 ⊛ z 920),
(979, z 969 ⊹ z 543 ⊛ z 972 ⊹ z 548 ⊛ z 967 ⊹ z 551 ⊛ z 975 ⊝ z 540 ⊛ z 971 ⊝ z 546 ⊛ z 970),
(959, z 539 ⊛ z 899 ⊹ z 542 ⊛ z 900 ⊝ z 545 ⊛ z 922),
(891, z 53 ⊛ z 789),
(954, z 891 ⊹ z 542 ⊛ z 915 ⊝ z 539 ⊛ z 911 ⊝ z 545 ⊛ z 920 ⊝ z 550 ⊛ z 934),
(965, z 959 ⊹ z 543 ⊛ z 958 ⊹ z 548 ⊛ z 954 ⊹ z 551 ⊛ z 961 ⊝ z 540 ⊛ z 957 ⊝ z 546 ⊛ z 955),
(1002, z 964 ⊛ z 979 ⊝ z 965 ⊛ z 978),
(982, z 542 ⊛ z 907 ⊝ z 539 ⊛ z 906 ⊝ z 545 ⊛ z 902),
(1004, z 965 ⊛ z 973 ⊝ z 960 ⊛ z 979),
(1005, z 983 ⊛ z 1003 ⊝ z 905 ⊛ z 1002 ⊝ z 982 ⊛ z 1004),
(268, neg (z 3) ⊛ z 6 ⊛ q5p ⊝ z 4 ⊛ z 5 ⊛ q4p),
(269, z 3 ⊛ z 5 ⊛ q4p ⊝ z 4 ⊛ z 6 ⊛ q5p),
(270, z 3 ⊛ z 31 ⊛ q4p ⊹ z 3 ⊛ z 268 ⊹ z 4 ⊛ z 269 ⊝ z 4 ⊛ z 32 ⊛ q4p),
(271, z 3 ⊛ z 5 ⊛ q5p ⊝ z 4 ⊛ z 6 ⊛ q4p),
(272, q4p ⊛ z 270 ⊝ z 43 ⊛ q3p ⊛ z 271),
(762, ic11 ⊛ z 272),
(273, z 3 ⊛ z 6 ⊛ q4p ⊹ z 4 ⊛ z 5 ⊛ q5p),
(279, z 3 ⊛ z 41 ⊛ q4p ⊹ z 3 ⊛ z 271 ⊹ z 4 ⊛ z 273 ⊝ z 4 ⊛ z 42 ⊛ q4p),
(278, z 3 ⊛ z 269 ⊝ z 3 ⊛ z 32 ⊛ q4p ⊝ z 4 ⊛ z 31 ⊛ q4p ⊝ z 4 ⊛ z 268),
(280, q4p ⊛ z 279 ⊹ q5p ⊛ z 278 ⊹ z 43 ⊛ q3p ⊛ z 268),
(773, ic31 ⊛ z 280),
(266, z 46 ⊛ q4p ⊹ z 47 ⊛ q5p ⊹ z 51 ⊛ q3p),
(265, z 45 ⊛ q4p ⊝ z 50 ⊛ q3p),
(267, z 48 ⊛ q5p ⊹ z 49 ⊛ q4p ⊹ z 52 ⊛ q3p),
(758, ic31 ⊛ z 265 ⊹ ic33 ⊛ z 267),
(759, ic22 ⊛ z 266),
(780, z 266 ⊛ z 758 ⊝ z 267 ⊛ z 759),
(276, z 3 ⊛ z 43 ⊛ q4p),
(274, z 31 ⊛ z 271 ⊹ z 42 ⊛ z 269 ⊝ z 32 ⊛ z 273 ⊝ z 41 ⊛ z 268),
(275, n 2 ⊛ z 41 ⊛ z 273 ⊹ n 2 ⊛ z 42 ⊛ z 271 ⊝ n 2 ⊛ z 5 ⊛ z 6 ⊛ q5p),
(277, q3p ⊛ z 276 ⊹ q4p ⊛ z 274 ⊹ q5p ⊛ z 275),
(769, ic22 ⊛ z 277),
(757, ic11 ⊛ z 265 ⊹ ic31 ⊛ z 267),
(778, z 267 ⊛ z 757 ⊝ z 265 ⊛ z 758),
(792, id22 ⊛ z 277),
(283, z 63 ⊛ q4p ⊹ z 64 ⊛ q3p ⊹ z 65 ⊛ q5p),
(281, z 60 ⊛ q4p ⊹ z 61 ⊛ q3p ⊝ z 62 ⊛ q5p),
(781, id11 ⊛ z 281),
(783, id11 ⊛ z 283),
(798, z 283 ⊛ z 781 ⊝ z 281 ⊛ z 783),
(765, ic31 ⊛ z 272),
(777, ic33 ⊛ z 280),
(779, z 265 ⊛ z 759 ⊝ z 266 ⊛ z 757),
(284, z 7 ⊛ z 270 ⊝ z 7 ⊛ z 49 ⊛ q6p ⊝ z 8 ⊛ z 45 ⊛ q6p ⊝ z 8 ⊛ z 279),
(285, z 8 ⊛ z 42 ⊛ q6p ⊝ z 7 ⊛ z 32 ⊛ q6p ⊝ z 7 ⊛ z 271 ⊝ z 8 ⊛ z 268),
(286, z 7 ⊛ z 48 ⊛ q6p ⊹ z 8 ⊛ z 278),
(287, q4p ⊛ z 284 ⊹ z 43 ⊛ q3p ⊛ z 285 ⊝ q5p ⊛ z 286),
(787, id11 ⊛ z 287),
(282, z 46 ⊛ q4p ⊹ z 47 ⊛ q5p ⊹ z 51 ⊛ q3p ⊹ z 53 ⊛ q6p),
(782, id22 ⊛ z 282),
(799, z 282 ⊛ z 783 ⊝ z 283 ⊛ z 782),
(288, z 7 ⊛ z 45 ⊛ q6p ⊹ z 7 ⊛ z 279 ⊹ z 8 ⊛ z 270 ⊝ z 8 ⊛ z 49 ⊛ q6p),
(290, z 7 ⊛ z 278 ⊝ z 8 ⊛ z 48 ⊛ q6p),
(289, z 7 ⊛ z 268 ⊝ z 7 ⊛ z 42 ⊛ q6p ⊝ z 8 ⊛ z 32 ⊛ q6p ⊝ z 8 ⊛ z 271),
(291, q4p ⊛ z 288 ⊹ q5p ⊛ z 290 ⊹ z 43 ⊛ q3p ⊛ z 289),
(796, id11 ⊛ z 291),
(797, z 281 ⊛ z 782 ⊝ z 282 ⊛ z 781),
(295, z 5 ⊛ z 10 ⊛ q5p ⊹ z 6 ⊛ z 9 ⊛ q7p),
(300, neg (z 3) ⊛ z 10 ⊛ q7p ⊝ z 3 ⊛ z 26 ⊛ q4p ⊝ z 4 ⊛ z 9 ⊛ q4p ⊝ z 4 ⊛ z 295)]

/-- _mooreriderlean2012.py:742-910 -/
def part4 : List (ℕ × E) := [
(301, z 4 ⊛ z 10 ⊛ q7p ⊹ z 4 ⊛ z 26 ⊛ q4p ⊝ z 3 ⊛ z 9 ⊛ q4p ⊝ z 3 ⊛ z 295),
(302, z 29 ⊛ z 268 ⊹ z 32 ⊛ z 300 ⊝ z 31 ⊛ z 301 ⊝ z 69 ⊛ z 269),
(296, z 5 ⊛ z 9 ⊛ q7p ⊝ z 6 ⊛ z 10 ⊛ q5p),
(297, z 3 ⊛ z 25 ⊛ q4p ⊹ z 4 ⊛ z 296),
(298, z 3 ⊛ z 296 ⊝ z 4 ⊛ z 25 ⊛ q4p),
(299, z 5 ⊛ z 26 ⊛ q5p ⊹ z 6 ⊛ z 295 ⊹ z 31 ⊛ z 297 ⊹ z 32 ⊛ z 298 ⊹ z 71 ⊛ z 269 ⊹ z 72 ⊛ z 268),
(303, z 5 ⊛ z 9 ⊛ q5p ⊝ z 6 ⊛ z 10 ⊛ q7p),
(304, z 3 ⊛ z 303 ⊝ z 3 ⊛ z 10 ⊛ q4p ⊝ z 4 ⊛ z 9 ⊛ q7p ⊝ z 4 ⊛ z 24 ⊛ q4p),
(305, neg (z 5) ⊛ z 10 ⊛ q7p ⊝ z 6 ⊛ z 9 ⊛ q5p),
(306, z 4 ⊛ z 10 ⊛ q4p ⊝ z 3 ⊛ z 9 ⊛ q7p ⊝ z 3 ⊛ z 24 ⊛ q4p ⊝ z 4 ⊛ z 303),
(307, z 32 ⊛ z 304 ⊹ z 66 ⊛ z 268 ⊝ z 5 ⊛ z 23 ⊛ q5p ⊝ z 6 ⊛ z 305 ⊝ z 31 ⊛ z 306 ⊝ z 70 ⊛ z 269),
(308, z 3 ⊛ z 10 ⊛ q4p ⊹ z 4 ⊛ z 9 ⊛ q7p ⊹ z 4 ⊛ z 24 ⊛ q4p ⊝ z 3 ⊛ z 303),
(309, q4p ⊛ z 302 ⊹ q5p ⊛ z 299 ⊹ q7p ⊛ z 307 ⊹ z 43 ⊛ q3p ⊛ z 308),
(807, ie11 ⊛ z 309),
(313, z 3 ⊛ z 9 ⊛ q4p ⊹ z 3 ⊛ z 295 ⊝ z 4 ⊛ z 10 ⊛ q7p ⊝ z 4 ⊛ z 26 ⊛ q4p),
(310, z 3 ⊛ z 9 ⊛ q7p ⊹ z 3 ⊛ z 24 ⊛ q4p ⊹ z 4 ⊛ z 303 ⊝ z 4 ⊛ z 10 ⊛ q4p),
(319, z 27 ⊛ z 313 ⊹ z 29 ⊛ z 304 ⊹ z 30 ⊛ z 310 ⊹ z 66 ⊛ z 300),
(315, z 3 ⊛ z 23 ⊛ q4p ⊹ z 4 ⊛ z 305),
(316, z 3 ⊛ z 305 ⊝ z 4 ⊛ z 23 ⊛ q4p),
(317, z 24 ⊛ z 296 ⊹ z 25 ⊛ z 303 ⊹ z 29 ⊛ z 315 ⊹ z 67 ⊛ z 300 ⊝ z 30 ⊛ z 316 ⊝ z 68 ⊛ z 313),
(318, n 2 ⊛ z 25 ⊛ z 296 ⊹ n 2 ⊛ z 29 ⊛ z 300 ⊹ n 2 ⊛ z 30 ⊛ z 313),
(320, q4p ⊛ z 319 ⊹ q5p ⊛ z 317 ⊹ q7p ⊛ z 318 ⊹ z 43 ⊛ q3p ⊛ z 268),
(821, ie31 ⊛ z 320),
(293, z 76 ⊛ q5p ⊹ z 77 ⊛ q4p ⊹ z 82 ⊛ q3p),
(292, z 73 ⊛ q5p ⊹ z 74 ⊛ q4p ⊹ z 75 ⊛ q7p ⊹ z 81 ⊛ q3p),
(294, z 52 ⊛ q3p ⊹ z 78 ⊛ q5p ⊹ z 79 ⊛ q7p ⊹ z 80 ⊛ q4p),
(801, ie31 ⊛ z 292 ⊹ ie33 ⊛ z 294),
(802, ie22 ⊛ z 293),
(829, z 293 ⊛ z 801 ⊝ z 294 ⊛ z 802),
(312, neg (z 27) ⊛ z 268 ⊝ z 28 ⊛ z 269 ⊝ z 31 ⊛ z 308 ⊝ z 32 ⊛ z 310),
(311, z 5 ⊛ z 305 ⊹ z 27 ⊛ z 273 ⊹ z 41 ⊛ z 310 ⊝ z 6 ⊛ z 23 ⊛ q5p ⊝ z 28 ⊛ z 271 ⊝ z 42 ⊛ z 308),
(314, q4p ⊛ z 312 ⊹ q5p ⊛ z 311 ⊹ z 43 ⊛ q3p ⊛ z 313),
(816, ie22 ⊛ z 314),
(800, ie11 ⊛ z 292 ⊹ ie31 ⊛ z 294),
(827, z 294 ⊛ z 800 ⊝ z 292 ⊛ z 801),
(842, if22 ⊛ z 314),
(323, z 94 ⊛ q3p ⊹ z 95 ⊛ q5p ⊹ z 96 ⊛ q7p ⊹ z 97 ⊛ q4p),
(321, z 90 ⊛ q3p ⊹ z 91 ⊛ q5p ⊹ z 92 ⊛ q4p ⊹ z 93 ⊛ q7p),
(830, if11 ⊛ z 321),
(832, if11 ⊛ z 323),
(849, z 323 ⊛ z 830 ⊝ z 321 ⊛ z 832),
(812, ie31 ⊛ z 309),
(826, ie33 ⊛ z 320),
(828, z 292 ⊛ z 802 ⊝ z 293 ⊛ z 800),
(326, z 11 ⊛ z 302 ⊝ z 11 ⊛ z 80 ⊛ q8p ⊝ z 12 ⊛ z 74 ⊛ q8p ⊝ z 12 ⊛ z 319),
(325, z 11 ⊛ z 299 ⊝ z 11 ⊛ z 78 ⊛ q8p ⊝ z 12 ⊛ z 73 ⊛ q8p ⊝ z 12 ⊛ z 317),
(327, z 11 ⊛ z 307 ⊝ z 11 ⊛ z 79 ⊛ q8p ⊝ z 12 ⊛ z 75 ⊛ q8p ⊝ z 12 ⊛ z 318),
(324, z 11 ⊛ z 308 ⊝ z 11 ⊛ z 32 ⊛ q8p ⊝ z 12 ⊛ z 28 ⊛ q8p ⊝ z 12 ⊛ z 268),
(328, q4p ⊛ z 326 ⊹ q5p ⊛ z 325 ⊹ q7p ⊛ z 327 ⊹ z 43 ⊛ q3p ⊛ z 324),
(837, if11 ⊛ z 328),
(322, z 76 ⊛ q5p ⊹ z 77 ⊛ q4p ⊹ z 82 ⊛ q3p ⊹ z 83 ⊛ q8p),
(831, if22 ⊛ z 322),
(850, z 322 ⊛ z 832 ⊝ z 323 ⊛ z 831),
(332, z 11 ⊛ z 74 ⊛ q8p ⊹ z 11 ⊛ z 319 ⊹ z 12 ⊛ z 302 ⊝ z 12 ⊛ z 80 ⊛ q8p),
(330, z 11 ⊛ z 73 ⊛ q8p ⊹ z 11 ⊛ z 317 ⊹ z 12 ⊛ z 299 ⊝ z 12 ⊛ z 78 ⊛ q8p),
(331, z 11 ⊛ z 75 ⊛ q8p ⊹ z 11 ⊛ z 318 ⊹ z 12 ⊛ z 307 ⊝ z 12 ⊛ z 79 ⊛ q8p),
(329, z 11 ⊛ z 28 ⊛ q8p ⊹ z 11 ⊛ z 268 ⊹ z 12 ⊛ z 308 ⊝ z 12 ⊛ z 32 ⊛ q8p),
(333, q4p ⊛ z 332 ⊹ q5p ⊛ z 330 ⊹ q7p ⊛ z 331 ⊹ z 43 ⊛ q3p ⊛ z 329),
(847, if11 ⊛ z 333),
(848, z 321 ⊛ z 831 ⊝ z 322 ⊛ z 830),
(109, z 13 ⊛ z 45 ⊹ z 14 ⊛ z 49),
(340, z 13 ⊛ z 270 ⊹ z 14 ⊛ z 279),
(337, z 14 ⊛ z 15 ⊛ q9p),
(338, z 13 ⊛ z 15 ⊛ q9p),
(339, n 2 ⊛ z 15 ⊛ z 17 ⊛ q9p ⊝ n 2 ⊛ z 18 ⊛ z 337 ⊝ n 2 ⊛ z 20 ⊛ z 338),
(341, z 14 ⊛ z 268 ⊝ z 13 ⊛ z 271),
(342, q4p ⊛ z 340 ⊹ q9p ⊛ z 339 ⊹ z 14 ⊛ q5p ⊛ z 278 ⊹ z 43 ⊛ q3p ⊛ z 341),
(858, ig11 ⊛ z 342),
(350, z 20 ⊛ z 279 ⊹ z 45 ⊛ z 337 ⊝ z 17 ⊛ z 46 ⊛ q9p ⊝ z 15 ⊛ z 274 ⊝ z 18 ⊛ z 270 ⊝ z 49 ⊛ z
    338),
(349, z 20 ⊛ z 278 ⊝ z 17 ⊛ z 47 ⊛ q9p ⊝ z 15 ⊛ z 275 ⊝ z 48 ⊛ z 338),
(348, z 18 ⊛ z 271 ⊹ z 20 ⊛ z 268 ⊝ z 3 ⊛ z 15 ⊛ q4p ⊝ z 4 ⊛ z 17 ⊛ q9p ⊝ z 32 ⊛ z 338 ⊝ z 42 ⊛ z
    337),
(351, q4p ⊛ z 350 ⊹ q5p ⊛ z 349 ⊹ z 43 ⊛ q3p ⊛ z 348),
(872, ig31 ⊛ z 351),
(113, z 17 ⊛ z 46 ⊹ z 19 ⊛ z 49 ⊝ z 16 ⊛ z 45),
(335, z 99 ⊛ q9p ⊹ z 112 ⊛ q3p ⊹ z 113 ⊛ q4p ⊹ z 114 ⊛ q5p),
(334, z 98 ⊛ q9p ⊹ z 109 ⊛ q4p ⊹ z 110 ⊛ q3p ⊹ z 111 ⊛ q5p),
(117, z 20 ⊛ z 49 ⊝ z 15 ⊛ z 46 ⊝ z 18 ⊛ z 45),
(336, z 115 ⊛ q3p ⊹ z 116 ⊛ q5p ⊹ z 117 ⊛ q4p),
(852, ig31 ⊛ z 334 ⊹ ig33 ⊛ z 336),
(853, ig22 ⊛ z 335),
(879, z 335 ⊛ z 852 ⊝ z 336 ⊛ z 853),
(345, z 20 ⊛ z 49 ⊛ q9p ⊹ z 17 ⊛ z 274 ⊹ z 19 ⊛ z 279 ⊝ z 15 ⊛ z 46 ⊛ q9p ⊝ z 18 ⊛ z 45 ⊛ q9p ⊝ z
    16 ⊛ z 270),
(346, z 20 ⊛ z 48 ⊛ q9p ⊹ z 17 ⊛ z 275 ⊹ z 19 ⊛ z 278 ⊝ z 15 ⊛ z 47 ⊛ q9p),
(343, (z 13 ⊛ z 18 ⊝ z 14 ⊛ z 20) ⊛ q9p),
(344, z 3 ⊛ z 17 ⊛ q4p ⊹ z 18 ⊛ z 42 ⊛ q9p ⊹ z 20 ⊛ z 32 ⊛ q9p ⊹ z 16 ⊛ z 271 ⊹ z 19 ⊛ z 268 ⊝ z 4
    ⊛ z 15 ⊛ q9p),
(347, q4p ⊛ z 345 ⊹ q5p ⊛ z 346 ⊹ q9p ⊛ z 343 ⊹ z 43 ⊛ q3p ⊛ z 344),
(868, ig22 ⊛ z 347),
(851, ig11 ⊛ z 334 ⊹ ig31 ⊛ z 336),
(877, z 336 ⊛ z 851 ⊝ z 334 ⊛ z 852),
(863, ig31 ⊛ z 342),
(876, ig33 ⊛ z 351),
(878, z 334 ⊛ z 853 ⊝ z 335 ⊛ z 851),
(176, z 22 ⊛ z 46),
(173, z 21 ⊛ z 46),
(184, z 13 ⊛ z 176 ⊹ z 14 ⊛ z 173),
(207, l6 ⊛ z 113),
(209, z 184 ⊹ z 207),
(354, rr ⊛ z 3 ⊛ z 43 ⊛ q4p),
(355, q3p ⊛ z 354),
(353, z 119 ⊛ q4p),
(356, z 43 ⊛ q3p),
(359, neg (z 355) ⊝ z 3 ⊛ z 353 ⊛ z 356),
(357, z 44 ⊛ q4p),
(360, z 353 ⊛ z 357),
(352, z 118 ⊛ q3p),
(358, z 352 ⊛ z 356),
(361, z 5 ⊛ z 359 ⊝ z 6 ⊛ z 360 ⊝ z 41 ⊛ z 358),
(389, z 22 ⊛ z 277),
(170, neg (z 21) ⊛ z 49 ⊝ z 22 ⊛ z 45),
(390, z 361 ⊹ z 389 ⊹ (z 173 ⊛ q4p ⊹ z 174 ⊛ q5p ⊹ z 175 ⊛ q3p) ⊛ z 266 ⊝ (z 170 ⊛ q4p ⊹ z 171 ⊛
    q3p ⊝ z 172 ⊛ q5p) ⊛ z 267),
(363, z 5 ⊛ z 360 ⊹ z 6 ⊛ z 359 ⊹ z 31 ⊛ z 358),
(388, z 21 ⊛ z 277),
(392, z 363 ⊹ z 388 ⊹ (z 170 ⊛ q4p ⊹ z 171 ⊛ q3p ⊝ z 172 ⊛ q5p) ⊛ z 265 ⊝ (z 176 ⊛ q4p ⊹ z 177 ⊛
    q5p ⊹ z 178 ⊛ q3p) ⊛ z 266),
(393, z 13 ⊛ z 390 ⊹ z 14 ⊛ z 392),
(398, l6 ⊛ z 347),
(203, l5 ⊛ z 113),
(199, l5 ⊛ z 117 ⊝ l6 ⊛ z 109),
(399, z 393 ⊹ z 398 ⊝ (z 201 ⊛ q9p ⊹ z 202 ⊛ q3p ⊹ z 203 ⊛ q4p ⊹ z 204 ⊛ q5p) ⊛ z 335 ⊝ (z 197 ⊛
    q3p ⊹ z 198 ⊛ q5p ⊹ z 199 ⊛ q4p ⊝ z 200 ⊛ q9p) ⊛ z 336),
(181, z 119 ⊹ z 170),
(189, z 17 ⊛ z 181 ⊹ z 19 ⊛ z 173 ⊝ z 16 ⊛ z 176),
(212, z 189 ⊹ z 199),
(387, neg (z 21) ⊛ z 280 ⊝ z 22 ⊛ z 272),
(362, z 3 ⊛ z 358),
(391, z 387 ⊹ (z 176 ⊛ q4p ⊹ z 177 ⊛ q5p ⊹ z 178 ⊛ q3p) ⊛ z 267 ⊝ z 362 ⊝ (z 173 ⊛ q4p ⊹ z 174 ⊛
    q5p ⊹ z 175 ⊛ q3p) ⊛ z 265),
(394, z 17 ⊛ z 391 ⊹ z 19 ⊛ z 392 ⊝ z 16 ⊛ z 390),
(396, l5 ⊛ z 351 ⊝ l6 ⊛ z 342),
(400, z 394 ⊹ z 396 ⊹ (z 201 ⊛ q9p ⊹ z 202 ⊛ q3p ⊹ z 203 ⊛ q4p ⊹ z 204 ⊛ q5p) ⊛ z 334 ⊹ (z 205 ⊛
    q9p ⊹ z 206 ⊛ q3p ⊹ z 207 ⊛ q4p ⊹ z 208 ⊛ q5p) ⊛ z 336),
(194, z 20 ⊛ z 173 ⊝ z 15 ⊛ z 181 ⊝ z 18 ⊛ z 176),
(215, z 194 ⊝ z 203),
(395, z 20 ⊛ z 392 ⊝ z 15 ⊛ z 391 ⊝ z 18 ⊛ z 390),
(397, l5 ⊛ z 347),
(401, z 395 ⊹ (z 197 ⊛ q3p ⊹ z 198 ⊛ q5p ⊹ z 199 ⊛ q4p ⊝ z 200 ⊛ q9p) ⊛ z 334 ⊝ z 397 ⊝ (z 205 ⊛
    q9p ⊹ z 206 ⊛ q3p ⊹ z 207 ⊛ q4p ⊹ z 208 ⊛ q5p) ⊛ z 335),
(131, l1 ⊛ z 46),
(129, l1 ⊛ z 49 ⊝ l2 ⊛ z 45),
(365, l1 ⊛ z 277),
(134, l2 ⊛ z 46),
(369, z 363 ⊹ (z 128 ⊛ q5p ⊹ z 129 ⊛ q4p ⊹ z 130 ⊛ q3p) ⊛ z 265 ⊝ z 365 ⊝ (z 134 ⊛ q4p ⊹ z 135 ⊛
    q5p ⊹ z 136 ⊛ q3p) ⊛ z 266),
(366, l2 ⊛ z 277),
(367, z 361 ⊹ z 366 ⊝ (z 128 ⊛ q5p ⊹ z 129 ⊛ q4p ⊹ z 130 ⊛ q3p) ⊛ z 267 ⊝ (z 131 ⊛ q4p ⊹ z 132 ⊛
    q5p ⊹ z 133 ⊛ q3p) ⊛ z 266),
(139, z 119 ⊹ z 129),
(364, l1 ⊛ z 280 ⊝ l2 ⊛ z 272),
(368, z 364 ⊹ (z 131 ⊛ q4p ⊹ z 132 ⊛ q5p ⊹ z 133 ⊛ q3p) ⊛ z 265 ⊹ (z 134 ⊛ q4p ⊹ z 135 ⊛ q5p ⊹ z
    136 ⊛ q3p) ⊛ z 267 ⊝ z 362),
(370, d1 ⊛ z 277),
(374, z 363 ⊹ (z 143 ⊛ q5p ⊹ z 144 ⊛ q4p ⊹ z 145 ⊛ q3p) ⊛ z 265 ⊝ z 370),
(162, z 158 ⊛ z 80 ⊝ d2 ⊛ z 74 ⊝ l4 ⊛ z 74),
(383, z 158 ⊛ z 314),
(165, z 163 ⊛ z 77),
(386, (z 159 ⊛ q3p ⊹ z 160 ⊛ q5p ⊹ z 161 ⊛ q7p ⊹ z 162 ⊛ q4p) ⊛ z 292 ⊝ z 383 ⊝ (z 164 ⊛ q5p ⊹ z
    165 ⊛ q4p ⊹ z 166 ⊛ q3p) ⊛ z 293),
(168, z 158 ⊛ z 77),
(372, z 361 ⊝ (z 140 ⊛ q4p ⊹ z 141 ⊛ q5p ⊹ z 142 ⊛ q3p) ⊛ z 266 ⊝ (z 143 ⊛ q5p ⊹ z 144 ⊛ q4p ⊹ z
    145 ⊛ q3p) ⊛ z 267)]

/-- _mooreriderlean2012.py:911-1010 -/
def part5 : List (ℕ × E) := [
(371, d1 ⊛ z 280),
(373, z 371 ⊹ (z 140 ⊛ q4p ⊹ z 141 ⊛ q5p ⊹ z 142 ⊛ q3p) ⊛ z 265 ⊝ z 362),
(381, z 158 ⊛ z 320 ⊝ d2 ⊛ z 309 ⊝ l4 ⊛ z 309),
(384, z 381 ⊹ (z 164 ⊛ q5p ⊹ z 165 ⊛ q4p ⊹ z 166 ⊛ q3p) ⊛ z 294 ⊹ (z 167 ⊛ q5p ⊹ z 168 ⊛ q4p ⊹ z
    169 ⊛ q3p) ⊛ z 292),
(382, z 163 ⊛ z 314),
(385, z 382 ⊝ (z 167 ⊛ q5p ⊹ z 168 ⊛ q4p ⊹ z 169 ⊛ q3p) ⊛ z 293 ⊝ (z 159 ⊛ q3p ⊹ z 160 ⊛ q5p ⊹ z
    161 ⊛ q7p ⊹ z 162 ⊛ q4p) ⊛ z 294),
(377, d3 ⊛ z 314),
(380, (z 148 ⊛ q3p ⊹ z 149 ⊛ q5p ⊹ z 150 ⊛ q7p ⊹ z 151 ⊛ q4p) ⊛ z 292 ⊝ z 377 ⊝ (z 152 ⊛ q5p ⊹ z
    153 ⊛ q4p ⊹ z 154 ⊛ q3p) ⊛ z 293),
(375, d3 ⊛ z 320 ⊝ d2 ⊛ z 309),
(378, z 375 ⊹ (z 152 ⊛ q5p ⊹ z 153 ⊛ q4p ⊹ z 154 ⊛ q3p) ⊛ z 294 ⊹ (z 155 ⊛ q5p ⊹ z 156 ⊛ q4p ⊹ z
    157 ⊛ q3p) ⊛ z 292),
(376, d2 ⊛ z 314),
(379, z 376 ⊝ (z 155 ⊛ q5p ⊹ z 156 ⊛ q4p ⊹ z 157 ⊛ q3p) ⊛ z 293 ⊝ (z 148 ⊛ q3p ⊹ z 149 ⊛ q5p ⊹ z
    150 ⊛ q7p ⊹ z 151 ⊛ q4p) ⊛ z 294),
(889, z 45 ⊛ z 762 ⊹ z 45 ⊛ z 773 ⊹ z 45 ⊛ z 780 ⊹ z 46 ⊛ z 769 ⊹ z 46 ⊛ z 778 ⊹ z 46 ⊛ z 792 ⊹ z
    46 ⊛ z 798 ⊹ z 49 ⊛ z 765 ⊹ z 49 ⊛ z 777 ⊹ z 49 ⊛ z 779 ⊹ z 60 ⊛ z 787 ⊹ z 60 ⊛ z 799 ⊹ z 63 ⊛
    z 796 ⊹ z 63 ⊛ z 797 ⊹ z 74 ⊛ z 807 ⊹ z 74 ⊛ z 821 ⊹ z 74 ⊛ z 829 ⊹ z 77 ⊛ z 816 ⊹ z 77 ⊛ z
    827 ⊹ z 77 ⊛ z 842 ⊹ z 77 ⊛ z 849 ⊹ z 80 ⊛ z 812 ⊹ z 80 ⊛ z 826 ⊹ z 80 ⊛ z 828 ⊹ z 92 ⊛ z 837
    ⊹ z 92 ⊛ z 850 ⊹ z 97 ⊛ z 847 ⊹ z 97 ⊛ z 848 ⊹ z 109 ⊛ z 858 ⊹ z 109 ⊛ z 872 ⊹ z 109 ⊛ z 879 ⊹
    z 113 ⊛ z 868 ⊹ z 113 ⊛ z 877 ⊹ z 117 ⊛ z 863 ⊹ z 117 ⊛ z 876 ⊹ z 117 ⊛ z 878 ⊹ mg ⊛ (z 209 ⊛
    z 399 ⊹ z 212 ⊛ z 400 ⊹ z 215 ⊛ z 401) ⊝ md ⊛ z 3 ⊛ z 119 ⊛ z 358 ⊝ mc ⊛ (z 131 ⊛ z 369 ⊝ z
    134 ⊛ z 367 ⊝ z 139 ⊛ z 368) ⊝ me ⊛ (z 140 ⊛ z 374 ⊹ z 140 ⊛ z 386 ⊹ z 168 ⊛ z 374 ⊹ z 168 ⊛ z
    386 ⊹ z 10 ⊛ z 162 ⊛ z 372 ⊝ z 147 ⊛ z 373 ⊝ z 162 ⊛ z 384 ⊝ z 165 ⊛ z 385 ⊝ z 9 ⊛ z 147 ⊛ z
    384 ⊝ z 9 ⊛ z 162 ⊛ z 373 ⊝ z 9 ⊛ z 165 ⊛ z 372 ⊝ z 10 ⊛ z 147 ⊛ z 385 ⊝ z 10 ⊛ z 165 ⊛ z 373)
    ⊝ mf ⊛ (z 140 ⊛ z 374 ⊹ z 140 ⊛ z 380 ⊹ z 156 ⊛ z 374 ⊹ z 156 ⊛ z 380 ⊹ z 10 ⊛ z 151 ⊛ z 372 ⊝
    z 147 ⊛ z 373 ⊝ z 151 ⊛ z 378 ⊝ z 153 ⊛ z 379 ⊝ z 9 ⊛ z 147 ⊛ z 378 ⊝ z 9 ⊛ z 151 ⊛ z 373 ⊝ z
    9 ⊛ z 153 ⊛ z 372 ⊝ z 10 ⊛ z 147 ⊛ z 379 ⊝ z 10 ⊛ z 153 ⊛ z 373)),
(913, md ⊛ (z 1 ⊛ z 359 ⊹ z 2 ⊛ z 358 ⊹ z 218 ⊛ z 360) ⊹ mg ⊛ (z 182 ⊛ z 399 ⊹ z 187 ⊛ z 400 ⊹ z
    192 ⊛ z 401) ⊹ me ⊛ (z 120 ⊛ z 372 ⊹ z 122 ⊛ z 374 ⊹ z 122 ⊛ z 386 ⊹ z 9 ⊛ z 120 ⊛ z 385 ⊝ z
    121 ⊛ z 373 ⊝ z 9 ⊛ z 121 ⊛ z 384 ⊝ z 10 ⊛ z 120 ⊛ z 384 ⊝ z 10 ⊛ z 121 ⊛ z 385) ⊹ mf ⊛ (z 120
    ⊛ z 372 ⊹ z 122 ⊛ z 374 ⊹ z 122 ⊛ z 380 ⊹ z 9 ⊛ z 120 ⊛ z 379 ⊝ z 121 ⊛ z 373 ⊝ z 9 ⊛ z 121 ⊛
    z 378 ⊝ z 10 ⊛ z 120 ⊛ z 378 ⊝ z 10 ⊛ z 121 ⊛ z 379) ⊝ mc ⊛ (z 121 ⊛ z 368 ⊝ z 120 ⊛ z 367 ⊝ z
    122 ⊛ z 369)),
(925, z 51 ⊛ z 769 ⊹ z 51 ⊛ z 778 ⊹ z 51 ⊛ z 792 ⊹ z 51 ⊛ z 798 ⊹ z 52 ⊛ z 765 ⊹ z 52 ⊛ z 777 ⊹ z
    52 ⊛ z 779 ⊹ z 52 ⊛ z 812 ⊹ z 52 ⊛ z 826 ⊹ z 52 ⊛ z 828 ⊹ z 61 ⊛ z 787 ⊹ z 61 ⊛ z 799 ⊹ z 64 ⊛
    z 796 ⊹ z 64 ⊛ z 797 ⊹ z 81 ⊛ z 807 ⊹ z 81 ⊛ z 821 ⊹ z 81 ⊛ z 829 ⊹ z 82 ⊛ z 816 ⊹ z 82 ⊛ z
    827 ⊹ z 82 ⊛ z 842 ⊹ z 82 ⊛ z 849 ⊹ z 90 ⊛ z 837 ⊹ z 90 ⊛ z 850 ⊹ z 94 ⊛ z 847 ⊹ z 94 ⊛ z 848
    ⊹ z 110 ⊛ z 858 ⊹ z 110 ⊛ z 872 ⊹ z 110 ⊛ z 879 ⊹ z 112 ⊛ z 868 ⊹ z 112 ⊛ z 877 ⊹ z 115 ⊛ z
    863 ⊹ z 115 ⊛ z 876 ⊹ z 115 ⊛ z 878 ⊹ mc ⊛ (z 130 ⊛ z 368 ⊹ z 137 ⊛ z 367 ⊹ z 138 ⊛ z 369) ⊹
    mg ⊛ (z 211 ⊛ z 399 ⊹ z 214 ⊛ z 400 ⊹ z 217 ⊛ z 401) ⊝ z 50 ⊛ z 762 ⊝ z 50 ⊛ z 773 ⊝ z 50 ⊛ z
    780 ⊝ md ⊛ z 118 ⊛ z 359 ⊝ me ⊛ (z 126 ⊛ z 372 ⊹ z 169 ⊛ z 374 ⊹ z 169 ⊛ z 386 ⊹ z 9 ⊛ z 126 ⊛
    z 385 ⊹ z 10 ⊛ z 159 ⊛ z 372 ⊝ z 145 ⊛ z 373 ⊝ z 146 ⊛ z 374 ⊝ z 146 ⊛ z 386 ⊝ z 159 ⊛ z 384 ⊝
    z 166 ⊛ z 385 ⊝ z 9 ⊛ z 145 ⊛ z 384 ⊝ z 9 ⊛ z 159 ⊛ z 373 ⊝ z 9 ⊛ z 166 ⊛ z 372 ⊝ z 10 ⊛ z 126
    ⊛ z 384 ⊝ z 10 ⊛ z 145 ⊛ z 385 ⊝ z 10 ⊛ z 166 ⊛ z 373) ⊝ mf ⊛ (z 126 ⊛ z 372 ⊹ z 157 ⊛ z 374 ⊹
    z 157 ⊛ z 380 ⊹ z 9 ⊛ z 126 ⊛ z 379 ⊹ z 10 ⊛ z 148 ⊛ z 372 ⊝ z 145 ⊛ z 373 ⊝ z 146 ⊛ z 374 ⊝ z
    146 ⊛ z 380 ⊝ z 148 ⊛ z 378 ⊝ z 154 ⊛ z 379 ⊝ z 9 ⊛ z 145 ⊛ z 378 ⊝ z 9 ⊛ z 148 ⊛ z 373 ⊝ z 9
    ⊛ z 154 ⊛ z 372 ⊝ z 10 ⊛ z 126 ⊛ z 378 ⊝ z 10 ⊛ z 145 ⊛ z 379 ⊝ z 10 ⊛ z 154 ⊛ z 373)),
(933, z 47 ⊛ z 769 ⊹ z 47 ⊛ z 778 ⊹ z 47 ⊛ z 792 ⊹ z 47 ⊛ z 798 ⊹ z 48 ⊛ z 765 ⊹ z 48 ⊛ z 777 ⊹ z
    48 ⊛ z 779 ⊹ z 65 ⊛ z 796 ⊹ z 65 ⊛ z 797 ⊹ z 73 ⊛ z 807 ⊹ z 73 ⊛ z 821 ⊹ z 73 ⊛ z 829 ⊹ z 76 ⊛
    z 816 ⊹ z 76 ⊛ z 827 ⊹ z 76 ⊛ z 842 ⊹ z 76 ⊛ z 849 ⊹ z 78 ⊛ z 812 ⊹ z 78 ⊛ z 826 ⊹ z 78 ⊛ z
    828 ⊹ z 91 ⊛ z 837 ⊹ z 91 ⊛ z 850 ⊹ z 95 ⊛ z 847 ⊹ z 95 ⊛ z 848 ⊹ z 111 ⊛ z 858 ⊹ z 111 ⊛ z
    872 ⊹ z 111 ⊛ z 879 ⊹ z 114 ⊛ z 868 ⊹ z 114 ⊛ z 877 ⊹ z 116 ⊛ z 863 ⊹ z 116 ⊛ z 876 ⊹ z 116 ⊛
    z 878 ⊹ mg ⊛ (z 210 ⊛ z 399 ⊹ z 213 ⊛ z 400 ⊹ z 216 ⊛ z 401) ⊝ z 62 ⊛ z 787 ⊝ z 62 ⊛ z 799 ⊝
    mc ⊛ (z 132 ⊛ z 369 ⊝ z 128 ⊛ z 368 ⊝ z 135 ⊛ z 367) ⊝ me ⊛ (z 141 ⊛ z 374 ⊹ z 141 ⊛ z 386 ⊹ z
    167 ⊛ z 374 ⊹ z 167 ⊛ z 386 ⊹ z 10 ⊛ z 160 ⊛ z 372 ⊝ z 143 ⊛ z 373 ⊝ z 160 ⊛ z 384 ⊝ z 164 ⊛ z
    385 ⊝ z 9 ⊛ z 143 ⊛ z 384 ⊝ z 9 ⊛ z 160 ⊛ z 373 ⊝ z 9 ⊛ z 164 ⊛ z 372 ⊝ z 10 ⊛ z 143 ⊛ z 385 ⊝
    z 10 ⊛ z 164 ⊛ z 373) ⊝ mf ⊛ (z 141 ⊛ z 374 ⊹ z 141 ⊛ z 380 ⊹ z 155 ⊛ z 374 ⊹ z 155 ⊛ z 380 ⊹
    z 10 ⊛ z 149 ⊛ z 372 ⊝ z 143 ⊛ z 373 ⊝ z 149 ⊛ z 378 ⊝ z 152 ⊛ z 379 ⊝ z 9 ⊛ z 143 ⊛ z 378 ⊝ z
    9 ⊛ z 149 ⊛ z 373 ⊝ z 9 ⊛ z 152 ⊛ z 372 ⊝ z 10 ⊛ z 143 ⊛ z 379 ⊝ z 10 ⊛ z 152 ⊛ z 373)),
(938, z 83 ⊛ (z 842 ⊹ z 849)),
(917, mc ⊛ (z 123 ⊛ z 367 ⊹ z 124 ⊛ z 368 ⊹ z 125 ⊛ z 369) ⊹ mg ⊛ (z 183 ⊛ z 399 ⊹ z 188 ⊛ z 400 ⊹
    z 193 ⊛ z 401) ⊹ md ⊛ (z 2 ⊛ z 359 ⊝ z 1 ⊛ z 358 ⊝ z 219 ⊛ z 360) ⊝ me ⊛ (z 10 ⊛ z 123 ⊛ z 384
    ⊝ z 123 ⊛ z 372 ⊝ z 124 ⊛ z 373 ⊝ z 125 ⊛ z 374 ⊝ z 125 ⊛ z 386 ⊝ z 9 ⊛ z 123 ⊛ z 385 ⊝ z 9 ⊛
    z 124 ⊛ z 384 ⊝ z 10 ⊛ z 124 ⊛ z 385) ⊝ mf ⊛ (z 10 ⊛ z 123 ⊛ z 378 ⊝ z 123 ⊛ z 372 ⊝ z 124 ⊛ z
    373 ⊝ z 125 ⊛ z 374 ⊝ z 125 ⊛ z 380 ⊝ z 9 ⊛ z 123 ⊛ z 379 ⊝ z 9 ⊛ z 124 ⊛ z 378 ⊝ z 10 ⊛ z 124
    ⊛ z 379)),
(948, z 889 ⊹ z 538 ⊛ z 913 ⊹ z 544 ⊛ z 925 ⊹ z 547 ⊛ z 933 ⊹ z 549 ⊛ z 938 ⊝ z 541 ⊛ z 917),
(881, z 45 ⊛ z 772 ⊹ z 46 ⊛ z 768 ⊹ z 46 ⊛ z 790 ⊹ z 49 ⊛ z 776 ⊹ z 60 ⊛ z 785 ⊹ z 63 ⊛ z 794 ⊹ z
    74 ⊛ z 806 ⊹ z 74 ⊛ z 817 ⊹ z 77 ⊛ z 815 ⊹ z 77 ⊛ z 840 ⊹ z 80 ⊛ z 811 ⊹ z 80 ⊛ z 822 ⊹ z 92 ⊛
    z 833 ⊹ z 97 ⊛ z 843 ⊹ z 109 ⊛ z 856 ⊹ z 109 ⊛ z 869 ⊹ z 113 ⊛ z 865 ⊹ z 117 ⊛ z 861 ⊹ z 117 ⊛
    z 873 ⊹ mg ⊛ (z 209 ⊛ z 211 ⊹ z 212 ⊛ z 214 ⊹ z 215 ⊛ z 217) ⊝ z 45 ⊛ z 761 ⊝ z 49 ⊛ z 764 ⊝
    mc ⊛ (z 131 ⊛ z 138 ⊝ z 130 ⊛ z 139 ⊝ z 134 ⊛ z 137) ⊝ me ⊛ (z 140 ⊛ z 146 ⊹ z 146 ⊛ z 168 ⊹ z
    9 ⊛ z 126 ⊛ z 165 ⊝ z 140 ⊛ z 169 ⊝ z 145 ⊛ z 147 ⊝ z 159 ⊛ z 162 ⊝ z 165 ⊛ z 166 ⊝ z 168 ⊛ z
    169 ⊝ z 9 ⊛ z 145 ⊛ z 162 ⊝ z 9 ⊛ z 147 ⊛ z 159 ⊝ z 10 ⊛ z 126 ⊛ z 162 ⊝ z 10 ⊛ z 145 ⊛ z 165
    ⊝ z 10 ⊛ z 147 ⊛ z 166) ⊝ mf ⊛ (z 140 ⊛ z 146 ⊹ z 146 ⊛ z 156 ⊹ z 9 ⊛ z 126 ⊛ z 153 ⊝ z 140 ⊛
    z 157 ⊝ z 145 ⊛ z 147 ⊝ z 148 ⊛ z 151 ⊝ z 153 ⊛ z 154 ⊝ z 156 ⊛ z 157 ⊝ z 9 ⊛ z 145 ⊛ z 151 ⊝
    z 9 ⊛ z 147 ⊛ z 148 ⊝ z 10 ⊛ z 126 ⊛ z 151 ⊝ z 10 ⊛ z 145 ⊛ z 153 ⊝ z 10 ⊛ z 147 ⊛ z 154)),
(940, z 881 ⊹ z 538 ⊛ z 912 ⊹ z 544 ⊛ z 919 ⊹ z 547 ⊛ z 927 ⊹ z 549 ⊛ z 936 ⊝ z 541 ⊛ z 916),
(554, z 1 ⊛ z 3 ⊛ q3p ⊝ z 2 ⊛ z 4 ⊛ q4p),
(555, z 1 ⊛ z 4 ⊛ q3p ⊹ z 2 ⊛ z 3 ⊛ q4p),
(556, z 4 ⊛ z 121 ⊛ q4p ⊝ z 3 ⊛ z 218 ⊛ q4p ⊝ z 3 ⊛ z 554 ⊝ z 4 ⊛ z 555),
(557, neg (z 1) ⊛ z 4 ⊛ q4p ⊝ z 2 ⊛ z 3 ⊛ q3p),
(558, z 1 ⊛ z 3 ⊛ q4p ⊝ z 2 ⊛ z 4 ⊛ q3p),
(559, z 3 ⊛ z 219 ⊛ q4p ⊹ z 3 ⊛ z 557 ⊹ z 4 ⊛ z 558 ⊝ z 4 ⊛ z 124 ⊛ q4p)]

/-- _mooreriderlean2012.py:1011-1136 -/
def part6 : List (ℕ × E) := [
(560, neg (z 5) ⊛ z 8 ⊛ q5p ⊝ z 5 ⊛ z 8 ⊛ q6p ⊝ z 6 ⊛ z 7 ⊛ q5p ⊝ z 6 ⊛ z 7 ⊛ q6p),
(561, z 5 ⊛ z 7 ⊛ q5p ⊹ z 5 ⊛ z 7 ⊛ q6p ⊝ z 6 ⊛ z 8 ⊛ q5p ⊝ z 6 ⊛ z 8 ⊛ q6p),
(566, rr ⊛ (z 54 ⊛ z 284 ⊹ z 55 ⊛ z 288 ⊹ z 60 ⊛ z 560 ⊹ z 63 ⊛ z 561)),
(567, neg (z 4) ⊛ z 229 ⊛ q4p ⊝ z 3 ⊛ z 566),
(564, rr ⊛ (z 54 ⊛ z 286 ⊹ z 62 ⊛ z 560 ⊝ z 55 ⊛ z 290 ⊝ z 65 ⊛ z 561)),
(565, z 3 ⊛ z 564 ⊝ z 4 ⊛ z 223 ⊛ q4p),
(562, rr ⊛ (z 61 ⊛ z 560 ⊹ z 64 ⊛ z 561 ⊹ z 43 ⊛ z 54 ⊛ z 285 ⊹ z 43 ⊛ z 55 ⊛ z 289)),
(563, z 3 ⊛ z 562 ⊝ z 4 ⊛ z 222 ⊛ q4p),
(568, u1 ⊛ z 556 ⊹ u2 ⊛ z 559 ⊹ u4 ⊛ z 567 ⊹ u5 ⊛ z 565 ⊝ u3 ⊛ z 563),
(569, z 1 ⊛ z 5 ⊛ q5p ⊹ z 1 ⊛ z 31 ⊛ q3p ⊹ z 2 ⊛ z 269 ⊝ z 2 ⊛ z 6 ⊛ q3p),
(570, neg (z 1) ⊛ z 6 ⊛ q5p ⊝ z 1 ⊛ z 41 ⊛ q3p ⊝ z 2 ⊛ z 5 ⊛ q3p ⊝ z 2 ⊛ z 273),
(571, z 9 ⊛ z 570 ⊝ z 9 ⊛ z 121 ⊛ q7p ⊝ z 10 ⊛ z 120 ⊛ q7p ⊝ z 10 ⊛ z 554),
(572, z 10 ⊛ z 121 ⊛ q7p ⊝ z 9 ⊛ z 120 ⊛ q7p ⊝ z 9 ⊛ z 554 ⊝ z 10 ⊛ z 570),
(573, z 5 ⊛ z 122 ⊛ q5p ⊹ z 6 ⊛ z 569 ⊹ z 23 ⊛ z 571 ⊹ z 233 ⊛ z 305 ⊝ z 25 ⊛ z 572 ⊝ z 238 ⊛ z
    296),
(574, z 1 ⊛ z 6 ⊛ q3p ⊹ z 2 ⊛ z 5 ⊛ q5p ⊹ z 2 ⊛ z 31 ⊛ q3p ⊝ z 1 ⊛ z 269),
(575, z 1 ⊛ z 5 ⊛ q3p ⊹ z 1 ⊛ z 273 ⊝ z 2 ⊛ z 6 ⊛ q5p ⊝ z 2 ⊛ z 41 ⊛ q3p),
(576, z 9 ⊛ z 124 ⊛ q7p ⊹ z 9 ⊛ z 575 ⊹ z 10 ⊛ z 557 ⊝ z 10 ⊛ z 123 ⊛ q7p),
(577, z 9 ⊛ z 557 ⊝ z 9 ⊛ z 123 ⊛ q7p ⊝ z 10 ⊛ z 124 ⊛ q7p ⊝ z 10 ⊛ z 575),
(578, z 5 ⊛ z 125 ⊛ q5p ⊹ z 6 ⊛ z 574 ⊹ z 23 ⊛ z 576 ⊹ z 234 ⊛ z 305 ⊝ z 25 ⊛ z 577 ⊝ z 239 ⊛ z
    296),
(603, z 5 ⊛ z 118 ⊛ q5p ⊹ z 6 ⊛ z 354),
(604, neg (z 603) ⊝ d1 ⊛ z 276),
(605, d3 ⊛ z 43 ⊛ z 313),
(580, z 25 ⊛ z 269 ⊹ z 31 ⊛ z 296 ⊝ z 5 ⊛ z 29 ⊛ q5p ⊝ z 6 ⊛ z 300),
(579, z 23 ⊛ z 300 ⊹ z 25 ⊛ z 310 ⊹ z 27 ⊛ z 296 ⊹ z 29 ⊛ z 305),
(581, n 2 ⊛ z 33 ⊛ z 580 ⊹ n 2 ⊛ z 34 ⊛ z 579),
(584, (n 2 ⊛ z 36 ⊛ z 580 ⊝ z 33 ⊛ z 581 ⊘ hpow (z 35) 1) ⊘ pow (z 36) 2),
(606, z 39 ⊛ z 43 ⊛ z 313 ⊹ qt 2 ⊛ rf ⊛ z 82 ⊛ z 584),
(607, z 604 ⊝ z 605 ⊝ z 606),
(608, d2 ⊛ z 43 ⊛ z 313),
(609, d1 ⊛ z 43 ⊛ z 268),
(610, z 5 ⊛ z 354 ⊝ z 6 ⊛ z 118 ⊛ q5p),
(611, z 9 ⊛ z 145 ⊛ q7p ⊹ z 10 ⊛ z 126 ⊛ q7p ⊹ z 608 ⊹ z 10 ⊛ z 609 ⊝ z 9 ⊛ z 610),
(582, (n 2 ⊛ z 36 ⊛ z 579 ⊝ z 34 ⊛ z 581 ⊘ hpow (z 35) 1) ⊘ pow (z 36) 2),
(612, z 40 ⊛ z 43 ⊛ z 313 ⊹ qt 2 ⊛ rf ⊛ z 82 ⊛ z 582),
(613, z 43 ⊛ (d2 ⊛ z 308 ⊝ d3 ⊛ z 268)),
(614, z 9 ⊛ z 126 ⊛ q7p ⊹ z 9 ⊛ z 609 ⊹ z 10 ⊛ z 610 ⊝ z 10 ⊛ z 145 ⊛ q7p ⊝ z 613),
(615, z 12 ⊛ z 40 ⊛ z 90 ⊛ q8p ⊹ z 11 ⊛ z 39 ⊛ z 43 ⊛ z 329 ⊹ qt 2 ⊛ rf ⊛ z 11 ⊛ z 94 ⊛ z 584 ⊝ z
    11 ⊛ z 39 ⊛ z 90 ⊛ q8p ⊝ z 11 ⊛ z 40 ⊛ z 94 ⊛ q8p ⊝ z 12 ⊛ z 39 ⊛ z 94 ⊛ q8p ⊝ z 11 ⊛ z 40 ⊛ z
    43 ⊛ z 324 ⊝ z 12 ⊛ z 39 ⊛ z 43 ⊛ z 324 ⊝ z 12 ⊛ z 40 ⊛ z 43 ⊛ z 329 ⊝ qt 2 ⊛ rf ⊛ z 11 ⊛ z 90
    ⊛ z 582 ⊝ qt 2 ⊛ rf ⊛ z 12 ⊛ z 90 ⊛ z 584 ⊝ qt 2 ⊛ rf ⊛ z 12 ⊛ z 94 ⊛ z 582),
(616, z 5 ⊛ z 262 ⊛ q5p ⊹ z 6 ⊛ z 607 ⊹ z 257 ⊛ z 305 ⊹ z 23 ⊛ (z 611 ⊹ z 612) ⊝ z 259 ⊛ z 296 ⊝ z
    25 ⊛ (z 614 ⊹ z 615)),
(597, z 9 ⊛ z 147 ⊛ q7p ⊹ d2 ⊛ z 312 ⊹ d1 ⊛ z 10 ⊛ z 279),
(598, z 40 ⊛ z 312 ⊹ qt 2 ⊛ rf ⊛ z 77 ⊛ z 582),
(595, neg d1 ⊛ z 274 ⊝ d3 ⊛ z 312),
(596, z 39 ⊛ z 312 ⊹ qt 2 ⊛ rf ⊛ z 77 ⊛ z 584),
(599, d3 ⊛ z 319 ⊝ d2 ⊛ z 302),
(600, z 599 ⊹ d1 ⊛ z 9 ⊛ z 279 ⊝ z 10 ⊛ z 147 ⊛ q7p),
(601, z 12 ⊛ z 40 ⊛ z 92 ⊛ q8p ⊹ z 11 ⊛ z 39 ⊛ z 332 ⊹ qt 2 ⊛ rf ⊛ z 11 ⊛ z 97 ⊛ z 584 ⊝ z 11 ⊛ z
    39 ⊛ z 92 ⊛ q8p ⊝ z 11 ⊛ z 40 ⊛ z 97 ⊛ q8p ⊝ z 12 ⊛ z 39 ⊛ z 97 ⊛ q8p ⊝ z 11 ⊛ z 40 ⊛ z 326 ⊝
    z 12 ⊛ z 39 ⊛ z 326 ⊝ z 12 ⊛ z 40 ⊛ z 332 ⊝ qt 2 ⊛ rf ⊛ z 11 ⊛ z 92 ⊛ z 582 ⊝ qt 2 ⊛ rf ⊛ z 12
    ⊛ z 92 ⊛ z 584 ⊝ qt 2 ⊛ rf ⊛ z 12 ⊛ z 97 ⊛ z 582),
(602, z 5 ⊛ z 263 ⊛ q5p ⊹ z 256 ⊛ z 305 ⊹ z 23 ⊛ (z 597 ⊹ z 598) ⊹ z 6 ⊛ (z 595 ⊝ z 596) ⊝ z 261 ⊛
    z 296 ⊝ z 25 ⊛ (z 600 ⊹ z 601)),
(589, z 9 ⊛ z 143 ⊛ q7p ⊹ d2 ⊛ z 311 ⊹ d1 ⊛ z 10 ⊛ z 278),
(590, z 40 ⊛ z 311 ⊹ qt 2 ⊛ rf ⊛ z 76 ⊛ z 582),
(587, neg d1 ⊛ z 275 ⊝ d3 ⊛ z 311),
(588, z 39 ⊛ z 311 ⊹ qt 2 ⊛ rf ⊛ z 76 ⊛ z 584),
(591, d3 ⊛ z 317 ⊝ d2 ⊛ z 299),
(592, z 591 ⊹ d1 ⊛ z 9 ⊛ z 278 ⊝ z 10 ⊛ z 143 ⊛ q7p),
(593, z 12 ⊛ z 40 ⊛ z 91 ⊛ q8p ⊹ z 11 ⊛ z 39 ⊛ z 330 ⊹ qt 2 ⊛ rf ⊛ z 11 ⊛ z 95 ⊛ z 584 ⊝ z 11 ⊛ z
    39 ⊛ z 91 ⊛ q8p ⊝ z 11 ⊛ z 40 ⊛ z 95 ⊛ q8p ⊝ z 12 ⊛ z 39 ⊛ z 95 ⊛ q8p ⊝ z 11 ⊛ z 40 ⊛ z 325 ⊝
    z 12 ⊛ z 39 ⊛ z 325 ⊝ z 12 ⊛ z 40 ⊛ z 330 ⊝ qt 2 ⊛ rf ⊛ z 11 ⊛ z 91 ⊛ z 582 ⊝ qt 2 ⊛ rf ⊛ z 12
    ⊛ z 91 ⊛ z 584 ⊝ qt 2 ⊛ rf ⊛ z 12 ⊛ z 95 ⊛ z 582),
(594, z 5 ⊛ z 264 ⊛ q5p ⊹ z 255 ⊛ z 305 ⊹ z 23 ⊛ (z 589 ⊹ z 590) ⊹ z 6 ⊛ (z 587 ⊝ z 588) ⊝ z 260 ⊛
    z 296 ⊝ z 25 ⊛ (z 592 ⊹ z 593)),
(583, rf ⊛ z 83 ⊛ z 582),
(585, rf ⊛ z 83 ⊛ z 584),
(586, z 254 ⊛ z 305 ⊹ qt 2 ⊛ z 23 ⊛ z 583 ⊝ z 5 ⊛ z 250 ⊛ q5p ⊝ qt 2 ⊛ z 6 ⊛ z 585),
(617, d3 ⊛ z 318 ⊝ d2 ⊛ z 307),
(618, z 12 ⊛ z 40 ⊛ z 93 ⊛ q8p ⊹ z 11 ⊛ z 39 ⊛ z 331 ⊹ qt 2 ⊛ rf ⊛ z 11 ⊛ z 96 ⊛ z 584 ⊝ z 11 ⊛ z
    39 ⊛ z 93 ⊛ q8p ⊝ z 11 ⊛ z 40 ⊛ z 96 ⊛ q8p ⊝ z 12 ⊛ z 39 ⊛ z 96 ⊛ q8p ⊝ z 11 ⊛ z 40 ⊛ z 327 ⊝
    z 12 ⊛ z 39 ⊛ z 327 ⊝ z 12 ⊛ z 40 ⊛ z 331 ⊝ qt 2 ⊛ rf ⊛ z 11 ⊛ z 93 ⊛ z 582 ⊝ qt 2 ⊛ rf ⊛ z 12
    ⊛ z 93 ⊛ z 584 ⊝ qt 2 ⊛ rf ⊛ z 12 ⊛ z 96 ⊛ z 582),
(619, z 258 ⊛ z 296 ⊹ z 25 ⊛ (z 617 ⊹ z 618)),
(620, u1 ⊛ z 573 ⊹ u2 ⊛ z 578 ⊹ u3 ⊛ z 616 ⊹ u4 ⊛ z 602 ⊹ u5 ⊛ z 594 ⊹ u8 ⊛ z 586 ⊝ u7 ⊛ z 619),
(552, rr ⊛ z 276 ⊝ z 354),
(553, z 1 ⊛ u2 ⊛ q3p ⊹ u3 ⊛ z 552 ⊹ rr ⊛ u4 ⊛ z 274 ⊹ rr ⊛ u5 ⊛ z 275 ⊝ z 2 ⊛ u1 ⊛ q3p),
(629, rr ⊛ z 3 ⊛ q4p),
(630, z 25 ⊛ z 580 ⊹ z 33 ⊛ z 296),
(631, (n 2 ⊛ z 35 ⊛ z 630 ⊝ z 416 ⊛ z 581) ⊘ hpow (z 35) 3),
(632, ((z 25 ⊛ z 36 ⊝ n 2 ⊛ z 33 ⊛ z 420) ⊛ z 581 ⊘ hpow (z 35) 1 ⊝ z 36 ⊛ (n 2 ⊛ z 36 ⊛ z 296 ⊝ n
    2 ⊛ z 420 ⊛ z 580 ⊝ z 33 ⊛ z 631)) ⊘ pow (z 36) 3),
(633, (z 34 ⊛ z 36 ⊛ z 631 ⊹ n 2 ⊛ z 36 ⊛ z 420 ⊛ z 579 ⊝ n 2 ⊛ z 34 ⊛ z 420 ⊛ z 581 ⊘ hpow (z 35)
    1) ⊘ pow (z 36) 3),
(634, z 443 ⊛ z 308 ⊝ z 434 ⊛ z 268 ⊝ qt 2 ⊛ rf ⊛ z 28 ⊛ z 632 ⊝ qt 2 ⊛ rf ⊛ z 32 ⊛ z 633),
(635, z 25 ⊛ z 579 ⊹ z 34 ⊛ z 296),
(636, (n 2 ⊛ z 35 ⊛ z 635 ⊝ z 412 ⊛ z 581) ⊘ hpow (z 35) 3),
(638, (z 33 ⊛ z 36 ⊛ z 636 ⊹ n 2 ⊛ z 36 ⊛ z 418 ⊛ z 580 ⊝ n 2 ⊛ z 33 ⊛ z 418 ⊛ z 581 ⊘ hpow (z 35)
    1) ⊘ pow (z 36) 3),
(637, ((z 25 ⊛ z 36 ⊝ n 2 ⊛ z 34 ⊛ z 418) ⊛ z 581 ⊘ hpow (z 35) 1 ⊝ z 36 ⊛ (n 2 ⊛ z 36 ⊛ z 296 ⊝ n
    2 ⊛ z 418 ⊛ z 579 ⊝ z 34 ⊛ z 636)) ⊘ pow (z 36) 3),
(639, z 432 ⊛ z 268 ⊝ z 444 ⊛ z 308 ⊝ qt 2 ⊛ rf ⊛ z 28 ⊛ z 638 ⊝ qt 2 ⊛ rf ⊛ z 32 ⊛ z 637),
(640, n 2 ⊛ z 23 ⊛ z 579 ⊹ n 2 ⊛ z 34 ⊛ z 305 ⊝ n 2 ⊛ z 5 ⊛ z 33 ⊛ q5p ⊝ n 2 ⊛ z 6 ⊛ z 580),
(641, (n 2 ⊛ z 35 ⊛ z 640 ⊝ z 411 ⊛ z 581) ⊘ hpow (z 35) 3),
(643, (n 2 ⊛ z 33 ⊛ z 421 ⊛ z 581 ⊘ hpow (z 35) 1 ⊝ z 36 ⊛ (n 4 ⊛ z 5 ⊛ z 36 ⊛ q5p ⊹ z 33 ⊛ z 641
    ⊹ n 2 ⊛ z 421 ⊛ z 580 ⊝ n 2 ⊛ z 6 ⊛ z 581 ⊘ hpow (z 35) 1)) ⊘ pow (z 36) 3),
(642, (n 2 ⊛ (z 23 ⊛ z 36 ⊝ z 34 ⊛ z 421) ⊛ z 581 ⊘ hpow (z 35) 1 ⊝ z 36 ⊛ (n 4 ⊛ z 36 ⊛ z 305 ⊝ n
    2 ⊛ z 421 ⊛ z 579 ⊝ z 34 ⊛ z 641)) ⊘ pow (z 36) 3),
(644, qt 2 ⊛ z 430 ⊛ z 268 ⊹ qt 1 ⊛ rf ⊛ z 28 ⊛ z 643 ⊝ qt 2 ⊛ z 446 ⊛ z 308 ⊝ qt 1 ⊛ rf ⊛ z 32 ⊛
    z 642),
(645, d1 ⊛ z 3 ⊛ z 6 ⊛ q4p ⊹ d1 ⊛ z 4 ⊛ z 5 ⊛ q5p ⊹ z 4 ⊛ z 6 ⊛ z 448 ⊛ q5p ⊹ z 629 ⊹ z 3 ⊛ z 5 ⊛
    z 634 ⊹ (z 3 ⊛ z 24 ⊝ z 4 ⊛ z 10) ⊛ z 639 ⊹ qt 2 ⊛ rf ⊛ (z 3 ⊛ z 10 ⊹ z 4 ⊛ z 24) ⊛ z 584 ⊹ z
    451 ⊛ (z 4 ⊛ z 10 ⊛ q7p ⊹ z 4 ⊛ z 26 ⊛ q4p ⊝ z 3 ⊛ z 9 ⊛ q4p ⊝ z 3 ⊛ z 295) ⊝ z 3 ⊛ z 5 ⊛ z
    448 ⊛ q4p ⊝ z 3 ⊛ z 6 ⊛ z 455 ⊛ q5p ⊝ z 4 ⊛ z 5 ⊛ z 455 ⊛ q4p ⊝ qt 2 ⊛ rf ⊛ z 4 ⊛ z 5 ⊛ z 582
    ⊝ (z 3 ⊛ z 26 ⊹ z 4 ⊛ z 9) ⊛ z 644 ⊝ z 453 ⊛ (z 3 ⊛ z 10 ⊛ q4p ⊹ z 4 ⊛ z 9 ⊛ q7p ⊹ z 4 ⊛ z 24
    ⊛ q4p ⊝ z 3 ⊛ z 303) ⊝ z 449 ⊛ (z 4 ⊛ z 10 ⊛ q4p ⊝ z 3 ⊛ z 9 ⊛ q7p ⊝ z 3 ⊛ z 24 ⊛ q4p ⊝ z 4 ⊛
    z 303)),
(646, z 5 ⊛ z 300 ⊝ z 6 ⊛ z 29 ⊛ q5p),
(647, z 33 ⊛ z 646 ⊹ z 410 ⊛ z 580),
(648, (n 2 ⊛ z 35 ⊛ z 647 ⊝ z 415 ⊛ z 581) ⊘ hpow (z 35) 3),
(650, (z 34 ⊛ z 36 ⊛ z 648 ⊹ n 2 ⊛ z 36 ⊛ z 417 ⊛ z 579 ⊝ n 2 ⊛ z 34 ⊛ z 417 ⊛ z 581 ⊘ hpow (z 35)
    1) ⊘ pow (z 36) 3),
(649, (n 2 ⊛ z 33 ⊛ z 417 ⊛ z 581 ⊘ hpow (z 35) 1 ⊹ z 36 ⊛ (n 2 ⊛ z 36 ⊛ z 646 ⊝ n 2 ⊛ z 417 ⊛ z
    580 ⊝ z 33 ⊛ z 648 ⊝ z 410 ⊛ z 581 ⊘ hpow (z 35) 1)) ⊘ pow (z 36) 3)]

/-- _mooreriderlean2012.py:1137-1251 -/
def part7 : List (ℕ × E) := [
(651, z 429 ⊛ z 268 ⊹ z 441 ⊛ z 308 ⊹ qt 2 ⊛ rf ⊛ z 32 ⊛ z 650 ⊝ qt 2 ⊛ rf ⊛ z 28 ⊛ z 649),
(652, z 29 ⊛ z 579 ⊹ z 34 ⊛ z 300),
(653, (n 2 ⊛ z 35 ⊛ z 652 ⊝ z 414 ⊛ z 581) ⊘ hpow (z 35) 3),
(655, (z 33 ⊛ z 36 ⊛ z 653 ⊹ n 2 ⊛ z 36 ⊛ z 419 ⊛ z 580 ⊝ n 2 ⊛ z 33 ⊛ z 419 ⊛ z 581 ⊘ hpow (z 35)
    1) ⊘ pow (z 36) 3),
(654, ((z 29 ⊛ z 36 ⊝ n 2 ⊛ z 34 ⊛ z 419) ⊛ z 581 ⊘ hpow (z 35) 1 ⊝ z 36 ⊛ (n 2 ⊛ z 36 ⊛ z 300 ⊝ n
    2 ⊛ z 419 ⊛ z 579 ⊝ z 34 ⊛ z 653)) ⊘ pow (z 36) 3),
(656, z 433 ⊛ z 268 ⊝ z 445 ⊛ z 308 ⊝ qt 2 ⊛ rf ⊛ z 28 ⊛ z 655 ⊝ qt 2 ⊛ rf ⊛ z 32 ⊛ z 654),
(657, n 2 ⊛ z 27 ⊛ z 579 ⊹ n 2 ⊛ z 31 ⊛ z 580 ⊹ n 2 ⊛ z 33 ⊛ z 269 ⊹ n 2 ⊛ z 34 ⊛ z 310),
(658, (n 2 ⊛ z 35 ⊛ z 657 ⊝ z 413 ⊛ z 581) ⊘ hpow (z 35) 3),
(659, (n 2 ⊛ (z 31 ⊛ z 36 ⊝ z 33 ⊛ z 422) ⊛ z 581 ⊘ hpow (z 35) 1 ⊝ z 36 ⊛ (n 4 ⊛ z 36 ⊛ z 269 ⊝ n
    2 ⊛ z 422 ⊛ z 580 ⊝ z 33 ⊛ z 658)) ⊘ pow (z 36) 3),
(660, (n 2 ⊛ (z 27 ⊛ z 36 ⊝ z 34 ⊛ z 422) ⊛ z 581 ⊘ hpow (z 35) 1 ⊝ z 36 ⊛ (n 4 ⊛ z 36 ⊛ z 310 ⊝ n
    2 ⊛ z 422 ⊛ z 579 ⊝ z 34 ⊛ z 658)) ⊘ pow (z 36) 3),
(661, qt 2 ⊛ z 431 ⊛ z 268 ⊹ qt 2 ⊛ z 442 ⊛ z 308 ⊝ qt 1 ⊛ rf ⊛ z 28 ⊛ z 659 ⊝ qt 1 ⊛ rf ⊛ z 32 ⊛
    z 660),
(662, d1 ⊛ z 3 ⊛ z 6 ⊛ q5p ⊹ d1 ⊛ z 4 ⊛ z 5 ⊛ q4p ⊹ z 4 ⊛ z 6 ⊛ z 448 ⊛ q4p ⊹ z 6 ⊛ z 10 ⊛ z 454 ⊛
    q7p ⊹ z 3 ⊛ z 5 ⊛ z 9 ⊛ z 453 ⊛ q4p ⊹ z 3 ⊛ z 5 ⊛ z 10 ⊛ z 449 ⊛ q7p ⊹ z 3 ⊛ z 6 ⊛ z 9 ⊛ z 449
    ⊛ q5p ⊹ z 4 ⊛ z 5 ⊛ z 9 ⊛ z 449 ⊛ q4p ⊹ z 4 ⊛ z 6 ⊛ z 10 ⊛ z 451 ⊛ q5p ⊹ z 651 ⊹ z 4 ⊛ z 5 ⊛ z
    9 ⊛ z 639 ⊝ z 3 ⊛ z 5 ⊛ z 448 ⊛ q5p ⊝ z 3 ⊛ z 6 ⊛ z 455 ⊛ q4p ⊝ z 4 ⊛ z 5 ⊛ z 455 ⊛ q5p ⊝ z 5
    ⊛ z 9 ⊛ z 454 ⊛ q5p ⊝ z 5 ⊛ z 10 ⊛ z 452 ⊛ q5p ⊝ z 6 ⊛ z 9 ⊛ z 452 ⊛ q7p ⊝ z 3 ⊛ z 5 ⊛ z 10 ⊛
    z 451 ⊛ q4p ⊝ z 4 ⊛ z 5 ⊛ z 9 ⊛ z 451 ⊛ q7p ⊝ z 4 ⊛ z 5 ⊛ z 10 ⊛ z 453 ⊛ q7p ⊝ z 4 ⊛ z 6 ⊛ z 9
    ⊛ z 453 ⊛ q5p ⊝ z 4 ⊛ z 6 ⊛ z 634 ⊝ z 6 ⊛ z 9 ⊛ z 656 ⊝ z 6 ⊛ z 10 ⊛ z 661 ⊝ z 4 ⊛ z 5 ⊛ z 10
    ⊛ z 644 ⊝ qt 2 ⊛ rf ⊛ z 3 ⊛ z 6 ⊛ z 582 ⊝ qt 2 ⊛ rf ⊛ z 3 ⊛ z 5 ⊛ z 9 ⊛ z 584),
(663, z 6 ⊛ z 10 ⊛ z 454 ⊛ q5p ⊹ z 449 ⊛ (z 3 ⊛ z 9 ⊛ q4p ⊹ z 3 ⊛ z 5 ⊛ z 10 ⊛ q5p ⊹ z 3 ⊛ z 6 ⊛ z
    9 ⊛ q7p ⊝ z 4 ⊛ z 10 ⊛ q7p ⊝ z 4 ⊛ z 6 ⊛ z 10 ⊛ q4p) ⊹ z 5 ⊛ z 9 ⊛ z 661 ⊹ (z 3 ⊛ z 9 ⊝ z 4 ⊛
    z 6 ⊛ z 10) ⊛ z 639 ⊹ qt 2 ⊛ rf ⊛ (z 4 ⊛ z 9 ⊹ z 3 ⊛ z 6 ⊛ z 10) ⊛ z 584 ⊝ z 5 ⊛ z 9 ⊛ z 454 ⊛
    q7p ⊝ z 5 ⊛ z 10 ⊛ z 452 ⊛ q7p ⊝ z 6 ⊛ z 9 ⊛ z 452 ⊛ q5p ⊝ z 453 ⊛ (z 3 ⊛ z 10 ⊛ q7p ⊹ z 4 ⊛ z
    9 ⊛ q4p ⊹ z 3 ⊛ z 6 ⊛ z 10 ⊛ q4p ⊹ z 4 ⊛ z 5 ⊛ z 10 ⊛ q5p ⊹ z 4 ⊛ z 6 ⊛ z 9 ⊛ q7p) ⊝ z 451 ⊛
    (z 3 ⊛ z 9 ⊛ q7p ⊹ z 3 ⊛ z 6 ⊛ z 9 ⊛ q4p ⊹ z 4 ⊛ z 5 ⊛ z 9 ⊛ q5p ⊝ z 4 ⊛ z 10 ⊛ q4p ⊝ z 4 ⊛ z
    6 ⊛ z 10 ⊛ q7p) ⊝ z 5 ⊛ z 10 ⊛ z 656 ⊝ (z 3 ⊛ z 10 ⊹ z 4 ⊛ z 6 ⊛ z 9) ⊛ z 644),
(664, u4 ⊛ z 645 ⊹ u5 ⊛ z 662 ⊹ u7 ⊛ z 663),
(621, z 27 ⊛ z 571 ⊹ z 29 ⊛ z 572 ⊹ z 233 ⊛ z 310 ⊹ z 238 ⊛ z 300 ⊝ z 31 ⊛ z 569 ⊝ z 122 ⊛ z 269),
(622, z 27 ⊛ z 576 ⊹ z 29 ⊛ z 577 ⊹ z 234 ⊛ z 310 ⊹ z 239 ⊛ z 300 ⊝ z 31 ⊛ z 574 ⊝ z 125 ⊛ z 269),
(626, z 257 ⊛ z 310 ⊹ z 259 ⊛ z 300 ⊹ z 27 ⊛ (z 611 ⊹ z 612) ⊹ z 29 ⊛ (z 614 ⊹ z 615) ⊝ z 31 ⊛ z
    607 ⊝ z 262 ⊛ z 269),
(625, z 256 ⊛ z 310 ⊹ z 261 ⊛ z 300 ⊹ z 27 ⊛ (z 597 ⊹ z 598) ⊹ z 29 ⊛ (z 600 ⊹ z 601) ⊝ z 263 ⊛ z
    269 ⊝ z 31 ⊛ (z 595 ⊝ z 596)),
(624, z 255 ⊛ z 310 ⊹ z 260 ⊛ z 300 ⊹ z 27 ⊛ (z 589 ⊹ z 590) ⊹ z 29 ⊛ (z 592 ⊹ z 593) ⊝ z 264 ⊛ z
    269 ⊝ z 31 ⊛ (z 587 ⊝ z 588)),
(627, z 258 ⊛ z 300 ⊹ z 29 ⊛ (z 617 ⊹ z 618)),
(623, z 250 ⊛ z 269 ⊹ z 254 ⊛ z 310 ⊹ qt 2 ⊛ z 27 ⊛ z 583 ⊹ qt 2 ⊛ z 31 ⊛ z 585),
(628, u1 ⊛ z 621 ⊹ u2 ⊛ z 622 ⊹ u3 ⊛ z 626 ⊹ u4 ⊛ z 625 ⊹ u5 ⊛ z 624 ⊹ u7 ⊛ z 627 ⊹ u8 ⊛ z 623),
(667, (z 525 ⊛ z 568 ⊹ z 478 ⊛ z 496 ⊛ z 620 ⊝ z 511 ⊛ z 553 ⊝ z 535 ⊛ z 664 ⊝ z 478 ⊛ z 528 ⊛ z
    628) ⊘ z 494),
(882, z 45 ⊛ z 770 ⊹ z 46 ⊛ z 767 ⊹ z 46 ⊛ z 789 ⊹ z 49 ⊛ z 774 ⊹ z 63 ⊛ z 795 ⊹ z 74 ⊛ z 803 ⊹ z
    74 ⊛ z 818 ⊹ z 77 ⊛ z 813 ⊹ z 77 ⊛ z 838 ⊹ z 80 ⊛ z 808 ⊹ z 80 ⊛ z 823 ⊹ z 92 ⊛ z 834 ⊹ z 97 ⊛
    z 844 ⊹ z 109 ⊛ z 857 ⊹ z 109 ⊛ z 870 ⊹ z 113 ⊛ z 867 ⊹ z 117 ⊛ z 862 ⊹ z 117 ⊛ z 874 ⊹ mc ⊛
    (z 128 ⊛ z 139 ⊹ z 131 ⊛ z 132 ⊹ z 134 ⊛ z 135) ⊹ mg ⊛ (z 209 ⊛ z 210 ⊹ z 212 ⊛ z 213 ⊹ z 215
    ⊛ z 216) ⊹ me ⊛ (z 140 ⊛ z 141 ⊹ z 140 ⊛ z 167 ⊹ z 141 ⊛ z 168 ⊹ z 143 ⊛ z 147 ⊹ z 160 ⊛ z 162
    ⊹ z 164 ⊛ z 165 ⊹ z 167 ⊛ z 168 ⊹ z 9 ⊛ z 143 ⊛ z 162 ⊹ z 9 ⊛ z 147 ⊛ z 160 ⊹ z 10 ⊛ z 143 ⊛ z
    165 ⊹ z 10 ⊛ z 147 ⊛ z 164) ⊹ mf ⊛ (z 140 ⊛ z 141 ⊹ z 140 ⊛ z 155 ⊹ z 141 ⊛ z 156 ⊹ z 143 ⊛ z
    147 ⊹ z 149 ⊛ z 151 ⊹ z 152 ⊛ z 153 ⊹ z 155 ⊛ z 156 ⊹ z 9 ⊛ z 143 ⊛ z 151 ⊹ z 9 ⊛ z 147 ⊛ z
    149 ⊹ z 10 ⊛ z 143 ⊛ z 153 ⊹ z 10 ⊛ z 147 ⊛ z 152) ⊝ z 60 ⊛ z 786),
(941, z 882 ⊹ z 538 ⊛ z 911 ⊹ z 544 ⊛ z 920 ⊹ z 547 ⊛ z 928 ⊹ z 549 ⊛ z 934 ⊝ z 541 ⊛ z 915),
(668, z 536 ⊛ z 664 ⊘ z 494),
(885, z 77 ⊛ z 841),
(944, z 885 ⊹ z 544 ⊛ z 923 ⊹ z 547 ⊛ z 931 ⊹ z 549 ⊛ z 937),
(669, (z 526 ⊛ z 568 ⊹ z 532 ⊛ z 628 ⊝ z 512 ⊛ z 553 ⊝ z 527 ⊛ z 620 ⊝ z 537 ⊛ z 664) ⊘ z 494),
(887, mg ⊛ (z 182 ⊛ z 209 ⊹ z 187 ⊛ z 212 ⊹ z 192 ⊛ z 215) ⊹ mc ⊛ (z 120 ⊛ z 134 ⊝ z 121 ⊛ z 139 ⊝
    z 122 ⊛ z 131) ⊹ me ⊛ (z 9 ⊛ z 120 ⊛ z 165 ⊝ z 121 ⊛ z 147 ⊝ z 122 ⊛ z 140 ⊝ z 122 ⊛ z 168 ⊝ z
    9 ⊛ z 121 ⊛ z 162 ⊝ z 10 ⊛ z 120 ⊛ z 162 ⊝ z 10 ⊛ z 121 ⊛ z 165) ⊹ mf ⊛ (z 9 ⊛ z 120 ⊛ z 153 ⊝
    z 121 ⊛ z 147 ⊝ z 122 ⊛ z 140 ⊝ z 122 ⊛ z 156 ⊝ z 9 ⊛ z 121 ⊛ z 151 ⊝ z 10 ⊛ z 120 ⊛ z 151 ⊝ z
    10 ⊛ z 121 ⊛ z 153) ⊝ md ⊛ z 119 ⊛ z 121),
(946, z 887 ⊹ z 538 ⊛ z 909 ⊹ z 544 ⊛ z 912 ⊹ z 547 ⊛ z 911 ⊝ z 541 ⊛ z 910),
(665, (z 519 ⊛ z 568 ⊹ z 487 ⊛ z 496 ⊛ z 620 ⊝ z 504 ⊛ z 553 ⊝ z 533 ⊛ z 664 ⊝ z 487 ⊛ z 528 ⊛ z
    628) ⊘ z 494),
(888, md ⊛ z 119 ⊛ z 124 ⊹ mg ⊛ (z 183 ⊛ z 209 ⊹ z 188 ⊛ z 212 ⊹ z 193 ⊛ z 215) ⊹ mc ⊛ (z 123 ⊛ z
    134 ⊹ z 124 ⊛ z 139 ⊝ z 125 ⊛ z 131) ⊝ me ⊛ (z 125 ⊛ z 140 ⊹ z 125 ⊛ z 168 ⊹ z 10 ⊛ z 123 ⊛ z
    162 ⊝ z 124 ⊛ z 147 ⊝ z 9 ⊛ z 123 ⊛ z 165 ⊝ z 9 ⊛ z 124 ⊛ z 162 ⊝ z 10 ⊛ z 124 ⊛ z 165) ⊝ mf ⊛
    (z 125 ⊛ z 140 ⊹ z 125 ⊛ z 156 ⊹ z 10 ⊛ z 123 ⊛ z 151 ⊝ z 124 ⊛ z 147 ⊝ z 9 ⊛ z 123 ⊛ z 153 ⊝
    z 9 ⊛ z 124 ⊛ z 151 ⊝ z 10 ⊛ z 124 ⊛ z 153)),
(947, z 888 ⊹ z 538 ⊛ z 910 ⊹ z 544 ⊛ z 916 ⊹ z 547 ⊛ z 915 ⊝ z 541 ⊛ z 914),
(666, (z 523 ⊛ z 568 ⊹ z 482 ⊛ z 496 ⊛ z 620 ⊝ z 509 ⊛ z 553 ⊝ z 534 ⊛ z 664 ⊝ z 482 ⊛ z 528 ⊛ z
    628) ⊘ z 494),
(952, z 948 ⊹ z 940 ⊛ z 667 ⊹ z 941 ⊛ z 668 ⊹ z 944 ⊛ z 669 ⊹ z 946 ⊛ z 665 ⊝ z 947 ⊛ z 666),
(788, id22 ⊛ z 46),
(890, z 53 ⊛ z 788),
(766, ic22 ⊛ z 46),
(763, ic31 ⊛ z 45),
(775, ic33 ⊛ z 49),
(809, ie31 ⊛ z 74),
(825, ie33 ⊛ z 80),
(784, id11 ⊛ z 60),
(793, id11 ⊛ z 63),
(804, ie11 ⊛ z 74),
(820, ie31 ⊛ z 80),
(814, ie22 ⊛ z 77),
(839, if22 ⊛ z 77),
(835, if11 ⊛ z 92),
(846, if11 ⊛ z 97),
(855, ig11 ⊛ z 109),
(871, ig31 ⊛ z 117),
(866, ig22 ⊛ z 113),
(860, ig31 ⊛ z 109),
(875, ig33 ⊛ z 117),
(760, ic11 ⊛ z 45),
(771, ic31 ⊛ z 49)]

/-- _mooreriderlean2012.py:1252-1395 -/
def part8 : List (ℕ × E) := [
(918, z 51 ⊛ z 766 ⊹ z 51 ⊛ z 788 ⊹ z 52 ⊛ z 763 ⊹ z 52 ⊛ z 775 ⊹ z 52 ⊛ z 809 ⊹ z 52 ⊛ z 825 ⊹ z
    61 ⊛ z 784 ⊹ z 64 ⊛ z 793 ⊹ z 81 ⊛ z 804 ⊹ z 81 ⊛ z 820 ⊹ z 82 ⊛ z 814 ⊹ z 82 ⊛ z 839 ⊹ z 90 ⊛
    z 835 ⊹ z 94 ⊛ z 846 ⊹ z 110 ⊛ z 855 ⊹ z 110 ⊛ z 871 ⊹ z 112 ⊛ z 866 ⊹ z 115 ⊛ z 860 ⊹ z 115 ⊛
    z 875 ⊹ mg ⊛ (z 209 ⊛ z 211 ⊹ z 212 ⊛ z 214 ⊹ z 215 ⊛ z 217) ⊝ z 50 ⊛ z 760 ⊝ z 50 ⊛ z 771 ⊝
    mc ⊛ (z 131 ⊛ z 138 ⊝ z 130 ⊛ z 139 ⊝ z 134 ⊛ z 137) ⊝ me ⊛ (z 140 ⊛ z 146 ⊹ z 146 ⊛ z 168 ⊹ z
    9 ⊛ z 126 ⊛ z 165 ⊝ z 140 ⊛ z 169 ⊝ z 145 ⊛ z 147 ⊝ z 159 ⊛ z 162 ⊝ z 165 ⊛ z 166 ⊝ z 168 ⊛ z
    169 ⊝ z 9 ⊛ z 145 ⊛ z 162 ⊝ z 9 ⊛ z 147 ⊛ z 159 ⊝ z 10 ⊛ z 126 ⊛ z 162 ⊝ z 10 ⊛ z 145 ⊛ z 165
    ⊝ z 10 ⊛ z 147 ⊛ z 166) ⊝ mf ⊛ (z 140 ⊛ z 146 ⊹ z 146 ⊛ z 156 ⊹ z 9 ⊛ z 126 ⊛ z 153 ⊝ z 140 ⊛
    z 157 ⊝ z 145 ⊛ z 147 ⊝ z 148 ⊛ z 151 ⊝ z 153 ⊛ z 154 ⊝ z 156 ⊛ z 157 ⊝ z 9 ⊛ z 145 ⊛ z 151 ⊝
    z 9 ⊛ z 147 ⊛ z 148 ⊝ z 10 ⊛ z 126 ⊛ z 151 ⊝ z 10 ⊛ z 145 ⊛ z 153 ⊝ z 10 ⊛ z 147 ⊛ z 154)),
(935, z 83 ⊛ z 839),
(953, z 890 ⊹ z 542 ⊛ z 888 ⊝ z 539 ⊛ z 887 ⊝ z 545 ⊛ z 918 ⊝ z 550 ⊛ z 935),
(963, z 953 ⊹ z 538 ⊛ z 957 ⊹ z 544 ⊛ z 955 ⊹ z 547 ⊛ z 954 ⊹ z 549 ⊛ z 961 ⊝ z 541 ⊛ z 958),
(896, z 75 ⊛ z 804 ⊹ z 75 ⊛ z 820 ⊹ z 79 ⊛ z 809 ⊹ z 79 ⊛ z 825 ⊹ z 93 ⊛ z 835 ⊹ z 96 ⊛ z 846 ⊹ me
    ⊛ z 161 ⊛ (z 162 ⊹ z 9 ⊛ z 147) ⊹ mf ⊛ z 150 ⊛ (z 151 ⊹ z 9 ⊛ z 147)),
(926, z 47 ⊛ z 766 ⊹ z 47 ⊛ z 788 ⊹ z 48 ⊛ z 763 ⊹ z 48 ⊛ z 775 ⊹ z 65 ⊛ z 793 ⊹ z 73 ⊛ z 804 ⊹ z
    73 ⊛ z 820 ⊹ z 76 ⊛ z 814 ⊹ z 76 ⊛ z 839 ⊹ z 78 ⊛ z 809 ⊹ z 78 ⊛ z 825 ⊹ z 91 ⊛ z 835 ⊹ z 95 ⊛
    z 846 ⊹ z 111 ⊛ z 855 ⊹ z 111 ⊛ z 871 ⊹ z 114 ⊛ z 866 ⊹ z 116 ⊛ z 860 ⊹ z 116 ⊛ z 875 ⊹ mc ⊛
    (z 128 ⊛ z 139 ⊹ z 131 ⊛ z 132 ⊹ z 134 ⊛ z 135) ⊹ mg ⊛ (z 209 ⊛ z 210 ⊹ z 212 ⊛ z 213 ⊹ z 215
    ⊛ z 216) ⊹ me ⊛ (z 140 ⊛ z 141 ⊹ z 140 ⊛ z 167 ⊹ z 141 ⊛ z 168 ⊹ z 143 ⊛ z 147 ⊹ z 160 ⊛ z 162
    ⊹ z 164 ⊛ z 165 ⊹ z 167 ⊛ z 168 ⊹ z 9 ⊛ z 143 ⊛ z 162 ⊹ z 9 ⊛ z 147 ⊛ z 160 ⊹ z 10 ⊛ z 143 ⊛ z
    165 ⊹ z 10 ⊛ z 147 ⊛ z 164) ⊹ mf ⊛ (z 140 ⊛ z 141 ⊹ z 140 ⊛ z 155 ⊹ z 141 ⊛ z 156 ⊹ z 143 ⊛ z
    147 ⊹ z 149 ⊛ z 151 ⊹ z 152 ⊛ z 153 ⊹ z 155 ⊛ z 156 ⊹ z 9 ⊛ z 143 ⊛ z 151 ⊹ z 9 ⊛ z 147 ⊛ z
    149 ⊹ z 10 ⊛ z 143 ⊛ z 153 ⊹ z 10 ⊛ z 147 ⊛ z 152) ⊝ z 62 ⊛ z 784),
(968, z 896 ⊹ z 543 ⊛ z 888 ⊹ z 548 ⊛ z 926 ⊹ z 551 ⊛ z 935 ⊝ z 540 ⊛ z 887 ⊝ z 546 ⊛ z 918),
(977, z 968 ⊹ z 538 ⊛ z 971 ⊹ z 544 ⊛ z 970 ⊹ z 547 ⊛ z 967 ⊹ z 549 ⊛ z 975 ⊝ z 541 ⊛ z 972),
(1007, z 963 ⊛ z 973 ⊝ z 960 ⊛ z 977),
(1006, z 963 ⊛ z 979 ⊝ z 965 ⊛ z 977),
(904, z 98 ⊛ z 855 ⊹ z 98 ⊛ z 871 ⊹ z 99 ⊛ z 866 ⊝ mg ⊛ (z 200 ⊛ z 212 ⊹ z 201 ⊛ z 215 ⊝ z 205 ⊛ z
    209)),
(981, z 904 ⊹ z 538 ⊛ z 906 ⊹ z 544 ⊛ z 902 ⊹ z 547 ⊛ z 903 ⊝ z 541 ⊛ z 907),
(1008, z 983 ⊛ z 1007 ⊝ z 905 ⊛ z 1006 ⊝ z 981 ⊛ z 1004),
(1009, z 963 ⊛ z 978 ⊝ z 964 ⊛ z 977),
(1010, z 982 ⊛ z 1007 ⊝ z 905 ⊛ z 1009 ⊝ z 981 ⊛ z 1003),
(1011, z 982 ⊛ z 1006 ⊝ z 981 ⊛ z 1002 ⊝ z 983 ⊛ z 1009),
(407, neg k9 ⊛ q9 ⊝ c9 ⊛ u9),
(670, z 45 ⊝ z 50 ⊛ z 544),
(672, z 49 ⊹ z 48 ⊛ z 547 ⊹ z 52 ⊛ z 544),
(673, z 50 ⊛ z 545),
(674, z 51 ⊛ z 545),
(675, z 52 ⊛ z 545),
(676, z 50 ⊛ z 546),
(678, z 48 ⊛ z 548 ⊝ z 52 ⊛ z 546),
(681, z 53 ⊝ z 51 ⊛ z 545),
(688, z 80 ⊹ z 52 ⊛ z 544 ⊹ z 78 ⊛ z 547),
(692, z 79 ⊹ z 78 ⊛ z 548 ⊝ z 52 ⊛ z 546),
(694, z 109 ⊹ z 110 ⊛ z 544 ⊹ z 111 ⊛ z 547),
(697, z 110 ⊛ z 545),
(700, z 111 ⊛ z 548 ⊝ z 110 ⊛ z 546),
(703, z 134 ⊹ z 120 ⊛ z 538 ⊹ z 135 ⊛ z 547 ⊹ z 137 ⊛ z 544 ⊝ z 123 ⊛ z 541),
(704, z 139 ⊹ z 128 ⊛ z 547 ⊹ z 130 ⊛ z 544 ⊝ z 121 ⊛ z 538 ⊝ z 124 ⊛ z 541),
(705, z 122 ⊛ z 538 ⊹ z 138 ⊛ z 544 ⊝ z 131 ⊝ z 125 ⊛ z 541 ⊝ z 132 ⊛ z 547),
(706, z 123 ⊛ z 542 ⊝ z 120 ⊛ z 539 ⊝ z 137 ⊛ z 545),
(707, z 121 ⊛ z 539 ⊹ z 124 ⊛ z 542 ⊝ z 130 ⊛ z 545),
(708, z 125 ⊛ z 542 ⊝ z 122 ⊛ z 539 ⊝ z 138 ⊛ z 545),
(709, z 123 ⊛ z 543 ⊹ z 135 ⊛ z 548 ⊝ z 120 ⊛ z 540 ⊝ z 137 ⊛ z 546),
(710, z 121 ⊛ z 540 ⊹ z 124 ⊛ z 543 ⊹ z 128 ⊛ z 548 ⊝ z 130 ⊛ z 546),
(711, z 125 ⊛ z 543 ⊝ z 122 ⊛ z 540 ⊝ z 132 ⊛ z 548 ⊝ z 138 ⊛ z 546),
(715, z 147 ⊹ z 143 ⊛ z 547 ⊹ z 145 ⊛ z 544 ⊝ z 121 ⊛ z 538 ⊝ z 124 ⊛ z 541),
(716, z 122 ⊛ z 538 ⊹ z 146 ⊛ z 544 ⊝ z 140 ⊝ z 125 ⊛ z 541 ⊝ z 141 ⊛ z 547),
(717, z 165 ⊹ z 164 ⊛ z 547 ⊹ z 166 ⊛ z 544),
(718, z 162 ⊹ z 159 ⊛ z 544 ⊹ z 160 ⊛ z 547),
(719, neg (z 168) ⊝ z 167 ⊛ z 547 ⊝ z 169 ⊛ z 544),
(720, z 120 ⊛ z 538 ⊝ z 123 ⊛ z 541 ⊝ z 126 ⊛ z 544),
(721, z 123 ⊛ z 542 ⊹ z 126 ⊛ z 545 ⊝ z 120 ⊛ z 539),
(722, z 121 ⊛ z 539 ⊹ z 124 ⊛ z 542 ⊝ z 145 ⊛ z 545),
(723, z 125 ⊛ z 542 ⊝ z 122 ⊛ z 539 ⊝ z 146 ⊛ z 545),
(724, z 166 ⊛ z 545),
(725, z 159 ⊛ z 545),
(726, z 169 ⊛ z 545),
(727, z 161 ⊹ z 160 ⊛ z 548 ⊝ z 159 ⊛ z 546),
(728, z 123 ⊛ z 543 ⊹ z 126 ⊛ z 546 ⊝ z 120 ⊛ z 540),
(729, z 121 ⊛ z 540 ⊹ z 124 ⊛ z 543 ⊹ z 143 ⊛ z 548 ⊝ z 145 ⊛ z 546),
(730, z 125 ⊛ z 543 ⊝ z 122 ⊛ z 540 ⊝ z 141 ⊛ z 548 ⊝ z 146 ⊛ z 546),
(731, z 164 ⊛ z 548 ⊝ z 166 ⊛ z 546),
(732, z 169 ⊛ z 546 ⊝ z 167 ⊛ z 548),
(733, z 4 ⊛ z 10 ⊝ z 9 ⊛ z 42),
(734, z 4 ⊛ z 9 ⊹ z 10 ⊛ z 42),
(735, z 153 ⊹ z 152 ⊛ z 547 ⊹ z 154 ⊛ z 544),
(736, z 151 ⊹ z 148 ⊛ z 544 ⊹ z 149 ⊛ z 547),
(737, neg (z 156) ⊝ z 155 ⊛ z 547 ⊝ z 157 ⊛ z 544),
(738, z 154 ⊛ z 545),
(739, z 148 ⊛ z 545),
(740, z 157 ⊛ z 545),
(741, z 150 ⊹ z 149 ⊛ z 548 ⊝ z 148 ⊛ z 546),
(742, z 152 ⊛ z 548 ⊝ z 154 ⊛ z 546),
(743, z 157 ⊛ z 546 ⊝ z 155 ⊛ z 548),
(744, z 209 ⊹ z 182 ⊛ z 538 ⊹ z 210 ⊛ z 547 ⊹ z 211 ⊛ z 544 ⊝ z 183 ⊛ z 541),
(745, z 212 ⊹ z 187 ⊛ z 538 ⊹ z 213 ⊛ z 547 ⊹ z 214 ⊛ z 544 ⊝ z 188 ⊛ z 541),
(746, z 215 ⊹ z 192 ⊛ z 538 ⊹ z 216 ⊛ z 547 ⊹ z 217 ⊛ z 544 ⊝ z 193 ⊛ z 541),
(747, z 183 ⊛ z 542 ⊝ z 182 ⊛ z 539 ⊝ z 211 ⊛ z 545),
(748, z 188 ⊛ z 542 ⊝ z 187 ⊛ z 539 ⊝ z 214 ⊛ z 545),
(749, z 193 ⊛ z 542 ⊝ z 192 ⊛ z 539 ⊝ z 217 ⊛ z 545),
(750, z 183 ⊛ z 543 ⊹ z 210 ⊛ z 548 ⊝ z 182 ⊛ z 540 ⊝ z 211 ⊛ z 546),
(751, z 188 ⊛ z 543 ⊹ z 213 ⊛ z 548 ⊝ z 187 ⊛ z 540 ⊝ z 214 ⊛ z 546),
(752, z 193 ⊛ z 543 ⊹ z 216 ⊛ z 548 ⊝ z 192 ⊛ z 540 ⊝ z 217 ⊛ z 546),
(880, z 45 ⊛ z 760 ⊹ z 45 ⊛ z 771 ⊹ z 46 ⊛ z 766 ⊹ z 46 ⊛ z 788 ⊹ z 49 ⊛ z 763 ⊹ z 49 ⊛ z 775 ⊹ z
    60 ⊛ z 784 ⊹ z 63 ⊛ z 793 ⊹ z 74 ⊛ z 804 ⊹ z 74 ⊛ z 820 ⊹ z 77 ⊛ z 814 ⊹ z 77 ⊛ z 839 ⊹ z 80 ⊛
    z 809 ⊹ z 80 ⊛ z 825 ⊹ z 92 ⊛ z 835 ⊹ z 97 ⊛ z 846 ⊹ z 109 ⊛ z 855 ⊹ z 109 ⊛ z 871 ⊹ z 113 ⊛ z
    866 ⊹ z 117 ⊛ z 860 ⊹ z 117 ⊛ z 875 ⊹ md ⊛ pow (z 119) 2 ⊹ mc ⊛ (pow (z 131) 2 ⊹ pow (z 134) 2
    ⊹ pow (z 139) 2) ⊹ mg ⊛ (pow (z 209) 2 ⊹ pow (z 212) 2 ⊹ pow (z 215) 2) ⊹ me ⊛ (pow (z 140) 2
    ⊹ pow (z 147) 2 ⊹ pow (z 162) 2 ⊹ pow (z 165) 2 ⊹ pow (z 168) 2 ⊹ n 2 ⊛ z 140 ⊛ z 168 ⊹ n 2 ⊛
    z 9 ⊛ z 147 ⊛ z 162 ⊹ n 2 ⊛ z 10 ⊛ z 147 ⊛ z 165) ⊹ mf ⊛ (pow (z 140) 2 ⊹ pow (z 147) 2 ⊹ pow
    (z 151) 2 ⊹ pow (z 153) 2 ⊹ pow (z 156) 2 ⊹ n 2 ⊛ z 140 ⊛ z 156 ⊹ n 2 ⊛ z 9 ⊛ z 147 ⊛ z 151 ⊹
    n 2 ⊛ z 10 ⊛ z 147 ⊛ z 153)),
(883, z 46 ⊛ z 791),
(884, z 74 ⊛ z 805 ⊹ z 74 ⊛ z 819 ⊹ z 80 ⊛ z 810 ⊹ z 80 ⊛ z 824 ⊹ z 92 ⊛ z 836 ⊹ z 97 ⊛ z 845 ⊹ me
    ⊛ z 161 ⊛ (z 162 ⊹ z 9 ⊛ z 147) ⊹ mf ⊛ z 150 ⊛ (z 151 ⊹ z 9 ⊛ z 147)),
(886, z 109 ⊛ z 854 ⊹ z 113 ⊛ z 864 ⊹ z 117 ⊛ z 859 ⊝ mg ⊛ (z 200 ⊛ z 212 ⊹ z 201 ⊛ z 215 ⊝ z 205
    ⊛ z 209)),
(894, z 53 ⊛ (z 792 ⊹ z 798)),
(901, z 75 ⊛ z 807 ⊹ z 75 ⊛ z 821 ⊹ z 75 ⊛ z 829 ⊹ z 79 ⊛ z 812 ⊹ z 79 ⊛ z 826 ⊹ z 79 ⊛ z 828 ⊹ z
    93 ⊛ z 837 ⊹ z 93 ⊛ z 850 ⊹ z 96 ⊛ z 847 ⊹ z 96 ⊛ z 848 ⊹ me ⊛ z 161 ⊛ (z 384 ⊹ z 9 ⊛ z 373 ⊝
    z 10 ⊛ z 372) ⊹ mf ⊛ z 150 ⊛ (z 378 ⊹ z 9 ⊛ z 373 ⊝ z 10 ⊛ z 372)),
(908, z 98 ⊛ z 858 ⊹ z 98 ⊛ z 872 ⊹ z 98 ⊛ z 879 ⊹ z 99 ⊛ z 868 ⊹ z 99 ⊛ z 877 ⊝ mg ⊛ (z 200 ⊛ z
    400 ⊹ z 201 ⊛ z 401 ⊝ z 205 ⊛ z 399)),
(939, z 880 ⊹ z 538 ⊛ z 887 ⊹ z 544 ⊛ z 918 ⊹ z 547 ⊛ z 926 ⊹ z 549 ⊛ z 935 ⊝ z 541 ⊛ z 888),
(942, z 883 ⊹ z 544 ⊛ z 921 ⊹ z 547 ⊛ z 929),
(943, z 884 ⊹ z 544 ⊛ z 922 ⊹ z 547 ⊛ z 930 ⊝ z 538 ⊛ z 899 ⊝ z 541 ⊛ z 900),
(945, z 886 ⊹ z 538 ⊛ z 906 ⊹ z 544 ⊛ z 924 ⊹ z 547 ⊛ z 932 ⊝ z 541 ⊛ z 907)]

/-- _mooreriderlean2012.py:1396-1565 -/
def part9 : List (ℕ × E) := [
(949, z 939 ⊹ z 538 ⊛ z 946 ⊹ z 544 ⊛ z 940 ⊹ z 547 ⊛ z 941 ⊹ z 549 ⊛ z 944 ⊝ z 541 ⊛ z 947),
(950, z 942 ⊹ z 542 ⊛ z 947 ⊝ z 539 ⊛ z 946 ⊝ z 545 ⊛ z 940 ⊝ z 550 ⊛ z 944),
(951, z 943 ⊹ z 543 ⊛ z 947 ⊹ z 548 ⊛ z 941 ⊹ z 551 ⊛ z 944 ⊝ z 540 ⊛ z 946 ⊝ z 546 ⊛ z 940),
(962, z 894 ⊹ z 542 ⊛ z 917 ⊝ z 539 ⊛ z 913 ⊝ z 545 ⊛ z 925 ⊝ z 550 ⊛ z 938),
(966, z 962 ⊹ z 954 ⊛ z 668 ⊹ z 955 ⊛ z 667 ⊹ z 957 ⊛ z 665 ⊹ z 961 ⊛ z 669 ⊝ z 958 ⊛ z 666),
(976, z 901 ⊹ z 543 ⊛ z 917 ⊹ z 548 ⊛ z 933 ⊹ z 551 ⊛ z 938 ⊝ z 540 ⊛ z 913 ⊝ z 546 ⊛ z 925),
(980, z 976 ⊹ z 967 ⊛ z 668 ⊹ z 970 ⊛ z 667 ⊹ z 971 ⊛ z 665 ⊹ z 975 ⊛ z 669 ⊝ z 972 ⊛ z 666),
(984, z 908 ⊹ z 902 ⊛ z 667 ⊹ z 903 ⊛ z 668 ⊹ z 906 ⊛ z 665 ⊝ z 907 ⊛ z 666),
(989, z 949 ⊛ z 964 ⊝ z 950 ⊛ z 963),
(990, z 905 ⊛ z 979 ⊝ z 973 ⊛ z 983),
(991, z 949 ⊛ z 965 ⊝ z 951 ⊛ z 963),
(992, z 905 ⊛ z 978 ⊝ z 973 ⊛ z 982),
(993, z 949 ⊛ z 960 ⊝ z 945 ⊛ z 963),
(994, z 978 ⊛ z 983 ⊝ z 979 ⊛ z 982),
(995, z 950 ⊛ z 965 ⊝ z 951 ⊛ z 964),
(996, z 905 ⊛ z 977 ⊝ z 973 ⊛ z 981),
(997, z 950 ⊛ z 960 ⊝ z 945 ⊛ z 964),
(998, z 977 ⊛ z 983 ⊝ z 979 ⊛ z 981),
(999, z 951 ⊛ z 960 ⊝ z 945 ⊛ z 965),
(1000, z 977 ⊛ z 982 ⊝ z 978 ⊛ z 981),
(1001, z 989 ⊛ z 990 ⊹ z 993 ⊛ z 994 ⊹ z 995 ⊛ z 996 ⊹ z 999 ⊛ z 1000 ⊝ z 991 ⊛ z 992 ⊝ z 997 ⊛ z
    998),
(1012, z 950 ⊛ z 979 ⊝ z 951 ⊛ z 978),
(1013, z 950 ⊛ z 973 ⊝ z 945 ⊛ z 978),
(1014, z 951 ⊛ z 973 ⊝ z 945 ⊛ z 979),
(1015, z 983 ⊛ z 1013 ⊝ z 905 ⊛ z 1012 ⊝ z 982 ⊛ z 1014),
(1016, z 949 ⊛ z 979 ⊝ z 951 ⊛ z 977),
(1017, z 949 ⊛ z 973 ⊝ z 945 ⊛ z 977),
(1018, z 983 ⊛ z 1017 ⊝ z 905 ⊛ z 1016 ⊝ z 981 ⊛ z 1014),
(1019, z 949 ⊛ z 978 ⊝ z 950 ⊛ z 977),
(1020, z 982 ⊛ z 1017 ⊝ z 905 ⊛ z 1019 ⊝ z 981 ⊛ z 1013),
(1021, z 982 ⊛ z 1016 ⊝ z 981 ⊛ z 1012 ⊝ z 983 ⊛ z 1019),
(1022, z 983 ⊛ z 997 ⊝ z 905 ⊛ z 995 ⊝ z 982 ⊛ z 999),
(1023, z 983 ⊛ z 993 ⊝ z 905 ⊛ z 991 ⊝ z 981 ⊛ z 999),
(1024, z 982 ⊛ z 993 ⊝ z 905 ⊛ z 989 ⊝ z 981 ⊛ z 997),
(1025, z 982 ⊛ z 991 ⊝ z 981 ⊛ z 995 ⊝ z 983 ⊛ z 989),
(1026, z 979 ⊛ z 997 ⊝ z 973 ⊛ z 995 ⊝ z 978 ⊛ z 999),
(1027, z 979 ⊛ z 993 ⊝ z 973 ⊛ z 991 ⊝ z 977 ⊛ z 999),
(1028, z 978 ⊛ z 993 ⊝ z 973 ⊛ z 989 ⊝ z 977 ⊛ z 997),
(1029, z 978 ⊛ z 991 ⊝ z 977 ⊛ z 995 ⊝ z 979 ⊛ z 989),
(408, T9 ⊹ z 407),
(409, neg T9 ⊝ z 407),
(753, T7 ⊛ z 688 ⊹ z 403 ⊛ z 4 ⊛ z 119 ⊹ T4 ⊛ z 5 ⊛ z 670 ⊹ T4 ⊛ z 6 ⊛ z 672 ⊹ z 406 ⊛ (z 106 ⊛ z
    744 ⊹ z 107 ⊛ z 745 ⊹ z 108 ⊛ z 746) ⊹ z 402 ⊛ (z 4 ⊛ z 704 ⊹ z 32 ⊛ z 705 ⊝ z 42 ⊛ z 703) ⊹ z
    694 ⊛ z 408 ⊹ z 13 ⊛ z 670 ⊛ z 409 ⊹ z 14 ⊛ z 672 ⊛ z 409 ⊝ T7 ⊛ z 672 ⊝ z 404 ⊛ (z 42 ⊛ z 720
    ⊝ z 4 ⊛ z 715 ⊝ z 32 ⊛ z 716 ⊝ z 32 ⊛ z 719 ⊝ z 717 ⊛ z 733 ⊝ z 718 ⊛ z 734) ⊝ z 405 ⊛ (z 42 ⊛
    z 720 ⊝ z 4 ⊛ z 715 ⊝ z 32 ⊛ z 716 ⊝ z 32 ⊛ z 737 ⊝ z 733 ⊛ z 735 ⊝ z 734 ⊛ z 736)),
(985, z 952 ⊝ z 753),
(755, T7 ⊛ z 692 ⊹ T4 ⊛ z 5 ⊛ z 676 ⊹ T4 ⊛ z 6 ⊛ z 678 ⊹ z 406 ⊛ (z 106 ⊛ z 750 ⊹ z 107 ⊛ z 751 ⊹
    z 108 ⊛ z 752) ⊹ z 402 ⊛ (z 4 ⊛ z 710 ⊹ z 32 ⊛ z 711 ⊝ z 42 ⊛ z 709) ⊹ z 700 ⊛ z 408 ⊹ z 13 ⊛
    z 676 ⊛ z 409 ⊹ z 14 ⊛ z 678 ⊛ z 409 ⊝ T7 ⊛ z 678 ⊝ z 404 ⊛ (z 42 ⊛ z 728 ⊝ z 4 ⊛ z 729 ⊝ z 32
    ⊛ z 730 ⊝ z 32 ⊛ z 732 ⊝ z 727 ⊛ z 734 ⊝ z 731 ⊛ z 733) ⊝ z 405 ⊛ (z 42 ⊛ z 728 ⊝ z 4 ⊛ z 729
    ⊝ z 32 ⊛ z 730 ⊝ z 32 ⊛ z 743 ⊝ z 733 ⊛ z 742 ⊝ z 734 ⊛ z 741)),
(987, z 980 ⊝ z 755),
(754, T6 ⊛ z 674 ⊹ T6 ⊛ z 681 ⊹ T4 ⊛ z 5 ⊛ z 673 ⊹ z 406 ⊛ (z 106 ⊛ z 747 ⊹ z 107 ⊛ z 748 ⊹ z 108
    ⊛ z 749) ⊹ z 402 ⊛ (z 4 ⊛ z 707 ⊹ z 32 ⊛ z 708 ⊝ z 42 ⊛ z 706) ⊹ z 404 ⊛ (z 4 ⊛ z 722 ⊹ z 32 ⊛
    z 723 ⊹ z 32 ⊛ z 726 ⊝ z 42 ⊛ z 721 ⊝ z 724 ⊛ z 733 ⊝ z 725 ⊛ z 734) ⊹ z 405 ⊛ (z 4 ⊛ z 722 ⊹
    z 32 ⊛ z 723 ⊹ z 32 ⊛ z 740 ⊝ z 42 ⊛ z 721 ⊝ z 733 ⊛ z 738 ⊝ z 734 ⊛ z 739) ⊹ z 13 ⊛ z 673 ⊛ z
    409 ⊝ T4 ⊛ z 6 ⊛ z 675 ⊝ z 697 ⊛ z 408 ⊝ z 14 ⊛ z 675 ⊛ z 409),
(986, z 966 ⊝ z 754),
(756, z 406 ⊛ (z 106 ⊛ z 205 ⊝ z 107 ⊛ z 200 ⊝ z 108 ⊛ z 201) ⊹ z 98 ⊛ z 408),
(988, z 984 ⊝ z 756),
(1030, (z 1005 ⊛ z 985 ⊹ z 1022 ⊛ z 987 ⊝ z 1015 ⊛ z 986 ⊝ z 1026 ⊛ z 988) ⊘ z 1001),
(5099, z 1030),
(1031, (z 1008 ⊛ z 985 ⊹ z 1023 ⊛ z 987 ⊝ z 1018 ⊛ z 986 ⊝ z 1027 ⊛ z 988) ⊘ z 1001),
(5100, neg (z 1031)),
(1032, (z 1010 ⊛ z 985 ⊹ z 1024 ⊛ z 987 ⊝ z 1020 ⊛ z 986 ⊝ z 1028 ⊛ z 988) ⊘ z 1001),
(5101, z 1032),
(1033, (z 1011 ⊛ z 985 ⊹ z 1025 ⊛ z 987 ⊝ z 1021 ⊛ z 986 ⊝ z 1029 ⊛ z 988) ⊘ z 1001),
(5102, neg (z 1033)),
(220, neg (z 5) ⊛ z 8 ⊝ z 6 ⊛ z 7),
(671, z 46 ⊹ z 47 ⊛ z 547 ⊹ z 51 ⊛ z 544),
(677, z 47 ⊛ z 548 ⊝ z 51 ⊛ z 546),
(679, z 60 ⊹ z 61 ⊛ z 544 ⊝ z 62 ⊛ z 547),
(680, z 63 ⊹ z 64 ⊛ z 544 ⊹ z 65 ⊛ z 547),
(684, neg (z 61) ⊛ z 546 ⊝ z 62 ⊛ z 548),
(685, z 65 ⊛ z 548 ⊝ z 64 ⊛ z 546),
(686, z 74 ⊹ z 73 ⊛ z 547 ⊹ z 81 ⊛ z 544),
(687, z 77 ⊹ z 76 ⊛ z 547 ⊹ z 82 ⊛ z 544),
(691, z 75 ⊹ z 73 ⊛ z 548 ⊝ z 81 ⊛ z 546),
(693, z 76 ⊛ z 548 ⊝ z 82 ⊛ z 546),
(695, z 113 ⊹ z 112 ⊛ z 544 ⊹ z 114 ⊛ z 547),
(696, z 117 ⊹ z 115 ⊛ z 544 ⊹ z 116 ⊛ z 547),
(701, z 114 ⊛ z 548 ⊝ z 112 ⊛ z 546),
(702, z 116 ⊛ z 548 ⊝ z 115 ⊛ z 546),
(1034, z 9 ⊛ z 120 ⊝ z 2 ⊛ z 3 ⊛ z 10),
(1035, neg (z 10) ⊛ z 120 ⊝ z 2 ⊛ z 3 ⊛ z 9),
(1036, z 6 ⊛ z 122 ⊹ z 23 ⊛ z 1034 ⊝ z 25 ⊛ z 1035),
(1037, z 1 ⊛ z 466 ⊝ z 228 ⊛ z 1036),
(1038, z 27 ⊛ z 1034 ⊹ z 29 ⊛ z 1035 ⊝ z 31 ⊛ z 122),
(1039, z 1 ⊛ z 463 ⊛ z 499 ⊝ z 496 ⊛ z 1037 ⊝ z 476 ⊛ z 517 ⊛ z 1038),
(1040, z 2 ⊛ z 228 ⊛ (pow (z 3) 2 ⊹ pow (z 4) 2) ⊝ z 1 ⊛ z 458),
(1041, z 2 ⊛ z 463 ⊛ (pow (z 3) 2 ⊹ pow (z 4) 2)),
(1042, z 458 ⊛ z 1036 ⊝ z 2 ⊛ z 466 ⊛ (pow (z 3) 2 ⊹ pow (z 4) 2)),
(1043, z 476 ⊛ z 501 ⊛ z 1038 ⊝ z 496 ⊛ z 1042 ⊝ z 499 ⊛ z 1041),
(1044, z 470 ⊛ z 1036 ⊝ z 463 ⊛ z 1038),
(1045, z 1 ⊛ z 459 ⊹ z 2 ⊛ z 225 ⊛ (pow (z 3) 2 ⊹ pow (z 4) 2)),
(1046, z 481 ⊛ z 1040 ⊹ z 492 ⊛ z 1044 ⊝ z 480 ⊛ z 1045),
(1047, z 2 ⊛ z 458 ⊹ z 1 ⊛ z 228 ⊛ (pow (z 3) 2 ⊹ pow (z 4) 2)),
(1048, neg (z 1) ⊛ z 456 ⊝ z 2 ⊛ z 457),
(1049, z 1 ⊛ z 31 ⊝ z 2 ⊛ z 6),
(1050, neg (z 1) ⊛ z 41 ⊝ z 2 ⊛ z 5),
(1051, z 9 ⊛ z 1050 ⊝ z 1 ⊛ z 3 ⊛ z 10),
(1052, neg (z 10) ⊛ z 1050 ⊝ z 1 ⊛ z 3 ⊛ z 9),
(1053, z 6 ⊛ z 1049 ⊹ z 23 ⊛ z 1051 ⊝ z 25 ⊛ z 1052),
(1054, z 27 ⊛ z 1051 ⊹ z 29 ⊛ z 1052 ⊝ z 31 ⊛ z 1049),
(1055, z 470 ⊛ z 1053 ⊝ z 463 ⊛ z 1054),
(1056, z 476 ⊛ (z 482 ⊛ z 1044 ⊹ z 484 ⊛ z 1047 ⊝ z 480 ⊛ z 1048 ⊝ z 487 ⊛ z 1055 ⊝ z 489 ⊛ z
    1040)),
(1057, (z 494 ⊛ (z 460 ⊛ z 1039 ⊹ z 465 ⊛ z 496 ⊛ z 1040 ⊝ z 224 ⊛ z 1043 ⊝ z 475 ⊛ z 1046 ⊝ z 472
    ⊛ z 528 ⊛ z 1040) ⊝ z 1056 ⊛ (z 460 ⊛ z 519 ⊹ z 465 ⊛ z 487 ⊛ z 496 ⊝ z 224 ⊛ z 504 ⊝ z 475 ⊛
    z 533 ⊝ z 472 ⊛ z 487 ⊛ z 528)) ⊘ pow (z 494) 2),
(1058, z 227 ⊛ (z 494 ⊛ z 1043 ⊝ z 504 ⊛ z 1056) ⊘ pow (z 494) 2),
(1059, (z 494 ⊛ (z 477 ⊛ z 1046 ⊹ z 467 ⊛ z 496 ⊛ z 1040 ⊹ z 474 ⊛ z 528 ⊛ z 1040) ⊝ z 1056 ⊛ (z
    477 ⊛ z 533 ⊹ z 467 ⊛ z 487 ⊛ z 496 ⊹ z 474 ⊛ z 487 ⊛ z 528)) ⊘ pow (z 494) 2),
(1060, z 1057 ⊛ u4 ⊝ z 1058 ⊛ u6 ⊝ z 1059 ⊛ u7),
(1061, z 3 ⊛ z 41 ⊝ z 4 ⊛ z 42),
(1062, z 7 ⊛ z 48 ⊝ z 8 ⊛ z 1061),
(1063, z 7 ⊛ z 1061 ⊹ z 8 ⊛ z 48),
(1064, rr ⊛ (z 54 ⊛ z 1062 ⊹ z 55 ⊛ z 1063)),
(1065, neg (z 3) ⊛ z 1064 ⊝ z 4 ⊛ z 229),
(1066, d1 ⊛ z 4 ⊛ z 5 ⊛ z 43),
(1067, rr ⊛ z 3 ⊛ z 5 ⊛ z 43),
(1068, d2 ⊛ z 29 ⊛ z 43 ⊝ z 9 ⊛ z 1067 ⊝ z 10 ⊛ z 1066),
(1069, z 23 ⊛ z 69 ⊹ z 25 ⊛ z 66),
(1070, z 3 ⊛ z 5 ⊛ z 25 ⊝ z 6 ⊛ z 69),
(1071, n 2 ⊛ z 33 ⊛ z 1070 ⊹ n 2 ⊛ z 34 ⊛ z 1069),
(1072, (n 2 ⊛ z 36 ⊛ z 1069 ⊝ z 34 ⊛ z 1071 ⊘ hpow (z 35) 1) ⊘ pow (z 36) 2),
(1073, z 29 ⊛ z 40 ⊛ z 43 ⊹ qt 2 ⊛ rf ⊛ z 82 ⊛ z 1072),
(1074, z 43 ⊛ (d2 ⊛ z 27 ⊹ d3 ⊛ z 4 ⊛ z 5)),
(1075, z 10 ⊛ z 1067 ⊝ z 1074 ⊝ z 9 ⊛ z 1066),
(1076, (n 2 ⊛ z 36 ⊛ z 1070 ⊝ z 33 ⊛ z 1071 ⊘ hpow (z 35) 1) ⊘ pow (z 36) 2),
(1077, z 12 ⊛ z 27 ⊝ z 4 ⊛ z 5 ⊛ z 11),
(1078, z 11 ⊛ z 27 ⊹ z 4 ⊛ z 5 ⊛ z 12),
(1079, z 11 ⊛ z 39 ⊛ z 43 ⊛ z 1077 ⊹ qt 2 ⊛ rf ⊛ z 11 ⊛ z 94 ⊛ z 1076 ⊝ z 11 ⊛ z 40 ⊛ z 43 ⊛ z
    1078 ⊝ z 12 ⊛ z 39 ⊛ z 43 ⊛ z 1078 ⊝ z 12 ⊛ z 40 ⊛ z 43 ⊛ z 1077 ⊝ qt 2 ⊛ rf ⊛ z 11 ⊛ z 90 ⊛ z
    1072 ⊝ qt 2 ⊛ rf ⊛ z 12 ⊛ z 90 ⊛ z 1076 ⊝ qt 2 ⊛ rf ⊛ z 12 ⊛ z 94 ⊛ z 1072),
(1080, rr ⊛ z 3 ⊛ z 6 ⊛ z 43),
(1081, neg (z 1080) ⊝ d1 ⊛ z 3 ⊛ z 43),
(1082, z 1081 ⊝ d3 ⊛ z 29 ⊛ z 43),
(1083, z 29 ⊛ z 39 ⊛ z 43 ⊹ qt 2 ⊛ rf ⊛ z 82 ⊛ z 1076),
(1084, z 66 ⊛ z 257 ⊹ z 69 ⊛ z 259 ⊹ z 27 ⊛ (z 1068 ⊹ z 1073) ⊹ z 29 ⊛ (z 1075 ⊹ z 1079) ⊝ z 3 ⊛ z
    5 ⊛ z 262 ⊝ z 31 ⊛ (z 1082 ⊝ z 1083)),
(1085, z 410 ⊛ z 1070 ⊹ z 5 ⊛ z 33 ⊛ z 69)]

/-- _mooreriderlean2012.py:1566-1704 -/
def part10 : List (ℕ × E) := [
(1086, (n 2 ⊛ z 35 ⊛ z 1085 ⊝ z 415 ⊛ z 1071) ⊘ hpow (z 35) 3),
(1087, (n 2 ⊛ z 33 ⊛ z 417 ⊛ z 1071 ⊘ hpow (z 35) 1 ⊹ z 36 ⊛ (n 2 ⊛ z 5 ⊛ z 36 ⊛ z 69 ⊝ n 2 ⊛ z
    417 ⊛ z 1070 ⊝ z 33 ⊛ z 1086 ⊝ z 410 ⊛ z 1071 ⊘ hpow (z 35) 1)) ⊘ pow (z 36) 3),
(1088, (z 34 ⊛ z 36 ⊛ z 1086 ⊹ n 2 ⊛ z 36 ⊛ z 417 ⊛ z 1069 ⊝ n 2 ⊛ z 34 ⊛ z 417 ⊛ z 1071 ⊘ hpow (z
    35) 1) ⊘ pow (z 36) 3),
(1089, z 27 ⊛ z 441 ⊹ qt 2 ⊛ rf ⊛ z 32 ⊛ z 1088 ⊝ z 4 ⊛ z 5 ⊛ z 429 ⊝ qt 2 ⊛ rf ⊛ z 28 ⊛ z 1087),
(1090, (z 412 ⊛ z 1071 ⊝ n 2 ⊛ z 25 ⊛ z 35 ⊛ z 1069) ⊘ hpow (z 35) 3),
(1091, (z 36 ⊛ (z 34 ⊛ z 1090 ⊝ n 2 ⊛ z 418 ⊛ z 1069) ⊝ z 1071 ⊛ (z 25 ⊛ z 36 ⊝ n 2 ⊛ z 34 ⊛ z
    418) ⊘ hpow (z 35) 1) ⊘ pow (z 36) 3),
(1092, (n 2 ⊛ z 36 ⊛ z 418 ⊛ z 1070 ⊝ z 33 ⊛ z 36 ⊛ z 1090 ⊝ n 2 ⊛ z 33 ⊛ z 418 ⊛ z 1071 ⊘ hpow (z
    35) 1) ⊘ pow (z 36) 3),
(1093, qt 2 ⊛ rf ⊛ z 32 ⊛ z 1091 ⊝ z 27 ⊛ z 444 ⊝ z 4 ⊛ z 5 ⊛ z 432 ⊝ qt 2 ⊛ rf ⊛ z 28 ⊛ z 1092),
(1094, (z 416 ⊛ z 1071 ⊝ n 2 ⊛ z 25 ⊛ z 35 ⊛ z 1070) ⊘ hpow (z 35) 3),
(1095, (z 36 ⊛ (z 33 ⊛ z 1094 ⊝ n 2 ⊛ z 420 ⊛ z 1070) ⊝ z 1071 ⊛ (z 25 ⊛ z 36 ⊝ n 2 ⊛ z 33 ⊛ z
    420) ⊘ hpow (z 35) 1) ⊘ pow (z 36) 3),
(1096, (n 2 ⊛ z 36 ⊛ z 420 ⊛ z 1069 ⊝ z 34 ⊛ z 36 ⊛ z 1094 ⊝ n 2 ⊛ z 34 ⊛ z 420 ⊛ z 1071 ⊘ hpow (z
    35) 1) ⊘ pow (z 36) 3),
(1097, z 27 ⊛ z 443 ⊹ z 4 ⊛ z 5 ⊛ z 434 ⊹ qt 2 ⊛ rf ⊛ z 28 ⊛ z 1095 ⊝ qt 2 ⊛ rf ⊛ z 32 ⊛ z 1096),
(1098, z 29 ⊛ z 1069 ⊹ z 34 ⊛ z 69),
(1099, (n 2 ⊛ z 35 ⊛ z 1098 ⊝ z 414 ⊛ z 1071) ⊘ hpow (z 35) 3),
(1100, (z 1071 ⊛ (z 29 ⊛ z 36 ⊝ n 2 ⊛ z 34 ⊛ z 419) ⊘ hpow (z 35) 1 ⊝ z 36 ⊛ (n 2 ⊛ z 36 ⊛ z 69 ⊝
    n 2 ⊛ z 419 ⊛ z 1069 ⊝ z 34 ⊛ z 1099)) ⊘ pow (z 36) 3),
(1101, (z 33 ⊛ z 36 ⊛ z 1099 ⊹ n 2 ⊛ z 36 ⊛ z 419 ⊛ z 1070 ⊝ n 2 ⊛ z 33 ⊛ z 419 ⊛ z 1071 ⊘ hpow (z
    35) 1) ⊘ pow (z 36) 3),
(1102, neg (z 27) ⊛ z 445 ⊝ z 4 ⊛ z 5 ⊛ z 433 ⊝ qt 2 ⊛ rf ⊛ z 28 ⊛ z 1101 ⊝ qt 2 ⊛ rf ⊛ z 32 ⊛ z
    1100),
(1103, n 2 ⊛ z 27 ⊛ z 1069 ⊹ n 2 ⊛ z 31 ⊛ z 1070 ⊹ n 2 ⊛ z 34 ⊛ z 66 ⊹ n 2 ⊛ z 3 ⊛ z 5 ⊛ z 33),
(1104, (n 2 ⊛ z 35 ⊛ z 1103 ⊝ z 413 ⊛ z 1071) ⊘ hpow (z 35) 3),
(1105, (n 2 ⊛ z 1071 ⊛ (z 31 ⊛ z 36 ⊝ z 33 ⊛ z 422) ⊘ hpow (z 35) 1 ⊹ z 36 ⊛ (z 33 ⊛ z 1104 ⊹ n 2
    ⊛ z 422 ⊛ z 1070 ⊝ n 4 ⊛ z 3 ⊛ z 5 ⊛ z 36)) ⊘ pow (z 36) 3),
(1106, (n 2 ⊛ z 1071 ⊛ (z 27 ⊛ z 36 ⊝ z 34 ⊛ z 422) ⊘ hpow (z 35) 1 ⊝ z 36 ⊛ (n 4 ⊛ z 36 ⊛ z 66 ⊝
    n 2 ⊛ z 422 ⊛ z 1069 ⊝ z 34 ⊛ z 1104)) ⊘ pow (z 36) 3),
(1107, qt 2 ⊛ z 27 ⊛ z 442 ⊝ qt 2 ⊛ z 4 ⊛ z 5 ⊛ z 431 ⊝ qt 1 ⊛ rf ⊛ z 28 ⊛ z 1105 ⊝ qt 1 ⊛ rf ⊛ z
    32 ⊛ z 1106),
(1108, n 2 ⊛ z 23 ⊛ z 1069 ⊝ n 2 ⊛ z 6 ⊛ z 1070),
(1109, (n 2 ⊛ z 35 ⊛ z 1108 ⊝ z 411 ⊛ z 1071) ⊘ hpow (z 35) 3),
(1110, (z 36 ⊛ (z 34 ⊛ z 1109 ⊹ n 2 ⊛ z 421 ⊛ z 1069) ⊹ n 2 ⊛ z 1071 ⊛ (z 23 ⊛ z 36 ⊝ z 34 ⊛ z
    421) ⊘ hpow (z 35) 1) ⊘ pow (z 36) 3),
(1111, (n 2 ⊛ z 33 ⊛ z 421 ⊛ z 1071 ⊘ hpow (z 35) 1 ⊝ z 36 ⊛ (z 33 ⊛ z 1109 ⊹ n 2 ⊛ z 421 ⊛ z 1070
    ⊝ n 2 ⊛ z 6 ⊛ z 1071 ⊘ hpow (z 35) 1)) ⊘ pow (z 36) 3),
(1112, qt 1 ⊛ rf ⊛ z 28 ⊛ z 1111 ⊝ qt 2 ⊛ z 27 ⊛ z 446 ⊝ qt 2 ⊛ z 4 ⊛ z 5 ⊛ z 430 ⊝ qt 1 ⊛ rf ⊛ z
    32 ⊛ z 1110),
(1113, z 1089 ⊹ d1 ⊛ z 4 ⊛ z 5 ⊹ z 4 ⊛ z 6 ⊛ z 448 ⊹ z 3 ⊛ z 5 ⊛ z 9 ⊛ z 453 ⊹ z 4 ⊛ z 5 ⊛ z 9 ⊛ z
    449 ⊹ z 4 ⊛ z 5 ⊛ z 9 ⊛ z 1093 ⊝ z 3 ⊛ z 6 ⊛ z 455 ⊝ z 4 ⊛ z 6 ⊛ z 1097 ⊝ z 6 ⊛ z 9 ⊛ z 1102 ⊝
    z 6 ⊛ z 10 ⊛ z 1107 ⊝ z 3 ⊛ z 5 ⊛ z 10 ⊛ z 451 ⊝ z 4 ⊛ z 5 ⊛ z 10 ⊛ z 1112 ⊝ qt 2 ⊛ rf ⊛ z 3 ⊛
    z 6 ⊛ z 1072 ⊝ qt 2 ⊛ rf ⊛ z 3 ⊛ z 5 ⊛ z 9 ⊛ z 1076),
(1114, z 473 ⊛ z 1113 ⊹ z 476 ⊛ z 1084),
(1115, rf ⊛ z 83 ⊛ (z 6 ⊛ z 1076 ⊝ z 23 ⊛ z 1072)),
(1116, z 66 ⊛ z 254 ⊹ z 3 ⊛ z 5 ⊛ z 250 ⊹ qt 2 ⊛ rf ⊛ z 27 ⊛ z 83 ⊛ z 1072 ⊹ qt 2 ⊛ rf ⊛ z 31 ⊛ z
    83 ⊛ z 1076),
(1117, z 470 ⊛ z 1113 ⊹ z 476 ⊛ z 1116),
(1118, z 23 ⊛ (z 1068 ⊹ z 1073) ⊹ z 6 ⊛ (z 1082 ⊝ z 1083) ⊝ z 25 ⊛ (z 1075 ⊹ z 1079)),
(1119, z 1 ⊛ (z 4 ⊛ z 10 ⊝ z 3 ⊛ z 6 ⊛ z 9)),
(1120, z 1 ⊛ (z 4 ⊛ z 9 ⊹ z 3 ⊛ z 6 ⊛ z 10)),
(1121, z 25 ⊛ z 1120 ⊝ z 23 ⊛ z 1119 ⊝ z 1 ⊛ z 3 ⊛ z 5 ⊛ z 6),
(1122, z 2 ⊛ z 1118 ⊝ z 228 ⊛ z 1121),
(1123, z 66 ⊛ z 234 ⊹ z 69 ⊛ z 239 ⊹ z 1 ⊛ z 3 ⊛ z 5 ⊛ z 31 ⊝ z 27 ⊛ z 1119 ⊝ z 29 ⊛ z 1120 ⊝ z 3
    ⊛ z 5 ⊛ z 125),
(1124, z 469 ⊛ z 1113 ⊹ z 476 ⊛ z 1123),
(1125, z 515 ⊛ z 1114 ⊹ qt 2 ⊛ z 228 ⊛ z 502 ⊛ z 1115 ⊝ z 496 ⊛ z 1122 ⊝ z 513 ⊛ z 1117 ⊝ z 517 ⊛
    z 1124 ⊝ qt 2 ⊛ z 2 ⊛ z 499 ⊛ z 1115),
(1126, z 3 ⊛ z 5 ⊛ z 42 ⊹ z 4 ⊛ z 5 ⊛ z 41 ⊝ z 3 ⊛ z 6 ⊛ z 32 ⊝ z 4 ⊛ z 6 ⊛ z 31),
(1127, z 4 ⊛ z 5 ⊛ z 27 ⊝ z 27 ⊛ z 31 ⊝ z 32 ⊛ z 66 ⊝ z 3 ⊛ z 5 ⊛ z 28),
(1128, neg d1 ⊛ z 1126 ⊝ d3 ⊛ z 1127),
(1129, z 39 ⊛ z 1127 ⊹ qt 2 ⊛ rf ⊛ z 77 ⊛ z 1076),
(1130, d2 ⊛ z 1127 ⊹ d1 ⊛ z 10 ⊛ z 1061),
(1131, z 40 ⊛ z 1127 ⊹ qt 2 ⊛ rf ⊛ z 77 ⊛ z 1072),
(1132, z 27 ⊛ z 29 ⊹ z 29 ⊛ z 70 ⊹ z 30 ⊛ z 66 ⊹ z 66 ⊛ z 69),
(1133, z 4 ⊛ z 26 ⊝ z 3 ⊛ z 9),
(1134, z 32 ⊛ z 69 ⊝ z 31 ⊛ z 1133 ⊝ z 3 ⊛ z 5 ⊛ z 69 ⊝ z 4 ⊛ z 5 ⊛ z 29),
(1135, d3 ⊛ z 1132 ⊝ d2 ⊛ z 1134),
(1136, z 1135 ⊹ d1 ⊛ z 9 ⊛ z 1061),
(1137, z 11 ⊛ z 1132 ⊹ z 12 ⊛ z 1134),
(1138, z 11 ⊛ z 1134 ⊝ z 12 ⊛ z 1132),
(1139, z 11 ⊛ z 39 ⊛ z 1137 ⊹ qt 2 ⊛ rf ⊛ z 11 ⊛ z 97 ⊛ z 1076 ⊝ z 11 ⊛ z 40 ⊛ z 1138 ⊝ z 12 ⊛ z
    39 ⊛ z 1138 ⊝ z 12 ⊛ z 40 ⊛ z 1137 ⊝ qt 2 ⊛ rf ⊛ z 11 ⊛ z 92 ⊛ z 1072 ⊝ qt 2 ⊛ rf ⊛ z 12 ⊛ z
    92 ⊛ z 1076 ⊝ qt 2 ⊛ rf ⊛ z 12 ⊛ z 97 ⊛ z 1072),
(1140, z 23 ⊛ (z 1130 ⊹ z 1131) ⊹ z 6 ⊛ (z 1128 ⊝ z 1129) ⊝ z 25 ⊛ (z 1136 ⊹ z 1139)),
(1141, z 4 ⊛ (z 5 ⊛ z 8 ⊹ z 6 ⊛ z 7)),
(1142, z 4 ⊛ (z 5 ⊛ z 7 ⊝ z 6 ⊛ z 8)),
(1143, rr ⊛ z 43 ⊛ (z 54 ⊛ z 1141 ⊝ z 55 ⊛ z 1142)),
(1144, z 3 ⊛ z 1143 ⊝ z 4 ⊛ z 222),
(1145, z 3 ⊛ z 219 ⊝ z 4 ⊛ z 124),
(1146, neg (z 2) ⊛ z 1144 ⊝ z 228 ⊛ z 1145),
(1147, z 463 ⊛ z 1145 ⊝ qt 2 ⊛ z 457 ⊛ z 1115),
(1148, z 463 ⊛ z 1144 ⊝ qt 2 ⊛ z 458 ⊛ z 1115),
(1149, z 457 ⊛ z 1118 ⊹ z 458 ⊛ z 1121 ⊹ z 462 ⊛ z 1144 ⊹ z 466 ⊛ z 1145),
(1150, z 498 ⊛ z 1114 ⊹ z 499 ⊛ z 1147 ⊹ z 501 ⊛ z 1124 ⊹ z 502 ⊛ z 1148 ⊝ z 495 ⊛ z 1117 ⊝ z 496
    ⊛ z 1149),
(1151, rr ⊛ z 3 ⊹ d1 ⊛ z 3 ⊛ z 6 ⊹ z 3 ⊛ z 5 ⊛ z 1097 ⊹ z 449 ⊛ (z 3 ⊛ z 24 ⊝ z 4 ⊛ z 10) ⊹ z 1093
    ⊛ (z 3 ⊛ z 24 ⊝ z 4 ⊛ z 10) ⊹ qt 2 ⊛ rf ⊛ z 1076 ⊛ (z 3 ⊛ z 10 ⊹ z 4 ⊛ z 24) ⊝ z 3 ⊛ z 5 ⊛ z
    448 ⊝ z 4 ⊛ z 5 ⊛ z 455 ⊝ qt 2 ⊛ rf ⊛ z 4 ⊛ z 5 ⊛ z 1072 ⊝ z 453 ⊛ (z 3 ⊛ z 10 ⊹ z 4 ⊛ z 24) ⊝
    z 1112 ⊛ (z 3 ⊛ z 26 ⊹ z 4 ⊛ z 9) ⊝ z 451 ⊛ (z 3 ⊛ z 9 ⊝ z 4 ⊛ z 26)),
(1152, z 6 ⊛ (z 3 ⊛ z 41 ⊝ z 4 ⊛ z 42)),
(1153, z 41 ⊛ z 66 ⊹ z 3 ⊛ z 6 ⊛ z 27 ⊹ z 4 ⊛ z 6 ⊛ z 28 ⊝ z 27 ⊛ z 42),
(1154, neg (n 2) ⊛ d1 ⊛ z 1152 ⊝ d3 ⊛ z 1153),
(1155, z 39 ⊛ z 1153 ⊹ qt 2 ⊛ rf ⊛ z 76 ⊛ z 1076),
(1156, z 5 ⊛ pow (z 3) 2 ⊹ z 5 ⊛ pow (z 4) 2 ⊝ z 3 ⊛ z 32 ⊝ z 4 ⊛ z 31),
(1157, d2 ⊛ z 1153 ⊹ d1 ⊛ z 10 ⊛ z 1156),
(1158, z 40 ⊛ z 1153 ⊹ qt 2 ⊛ rf ⊛ z 76 ⊛ z 1072),
(1159, z 67 ⊛ z 69 ⊹ z 3 ⊛ z 23 ⊛ z 29 ⊹ z 4 ⊛ z 23 ⊛ z 30 ⊝ z 29 ⊛ z 68),
(1160, z 3 ⊛ z 5 ⊛ z 71 ⊹ z 3 ⊛ z 25 ⊛ z 31 ⊝ z 4 ⊛ z 5 ⊛ z 72 ⊝ z 4 ⊛ z 25 ⊛ z 32),
(1161, d3 ⊛ z 1159 ⊝ d2 ⊛ z 1160),
(1162, z 1161 ⊹ d1 ⊛ z 9 ⊛ z 1156),
(1163, z 11 ⊛ z 1159 ⊹ z 12 ⊛ z 1160),
(1164, z 11 ⊛ z 1160 ⊝ z 12 ⊛ z 1159),
(1165, z 11 ⊛ z 39 ⊛ z 1163 ⊹ qt 2 ⊛ rf ⊛ z 11 ⊛ z 95 ⊛ z 1076 ⊝ z 11 ⊛ z 40 ⊛ z 1164 ⊝ z 12 ⊛ z
    39 ⊛ z 1164 ⊝ z 12 ⊛ z 40 ⊛ z 1163 ⊝ qt 2 ⊛ rf ⊛ z 11 ⊛ z 91 ⊛ z 1072 ⊝ qt 2 ⊛ rf ⊛ z 12 ⊛ z
    91 ⊛ z 1076 ⊝ qt 2 ⊛ rf ⊛ z 12 ⊛ z 95 ⊛ z 1072),
(1166, z 23 ⊛ (z 1157 ⊹ z 1158) ⊹ z 6 ⊛ (z 1154 ⊝ z 1155) ⊝ z 25 ⊛ (z 1162 ⊹ z 1165)),
(1167, z 66 ⊛ z 255 ⊹ z 69 ⊛ z 260 ⊹ z 27 ⊛ (z 1157 ⊹ z 1158) ⊹ z 29 ⊛ (z 1162 ⊹ z 1165) ⊝ z 3 ⊛ z
    5 ⊛ z 264 ⊝ z 31 ⊛ (z 1154 ⊝ z 1155)),
(1168, z 464 ⊛ z 1116 ⊹ z 470 ⊛ z 1166 ⊹ qt 2 ⊛ z 471 ⊛ z 1115 ⊝ z 463 ⊛ z 1167),
(1169, z 462 ⊛ z 1116 ⊹ z 470 ⊛ z 1121 ⊹ qt 2 ⊛ z 469 ⊛ z 1115 ⊝ z 463 ⊛ z 1123),
(1170, rr ⊛ z 1156 ⊛ (z 7 ⊛ z 55 ⊝ z 8 ⊛ z 54)),
(1171, neg (z 3) ⊛ z 1170 ⊝ z 4 ⊛ z 223),
(1172, z 225 ⊛ z 1144 ⊹ z 228 ⊛ z 1171 ⊹ n 2 ⊛ rr ⊛ z 458 ⊛ z 1152),
(1173, z 466 ⊛ z 1116 ⊹ z 470 ⊛ z 1118 ⊹ qt 2 ⊛ z 473 ⊛ z 1115 ⊝ z 463 ⊛ z 1084),
(1174, z 2 ⊛ z 1171 ⊝ z 225 ⊛ z 1145 ⊝ n 2 ⊛ rr ⊛ z 457 ⊛ z 1152),
(1175, z 481 ⊛ z 1146 ⊹ z 484 ⊛ z 1172 ⊹ z 487 ⊛ z 1168 ⊹ z 492 ⊛ z 1169 ⊝ z 480 ⊛ z 1174 ⊝ z 490
    ⊛ z 1173),
(1176, z 66 ⊛ z 256 ⊹ z 69 ⊛ z 261 ⊹ z 27 ⊛ (z 1130 ⊹ z 1131) ⊹ z 29 ⊛ (z 1136 ⊹ z 1139) ⊝ z 3 ⊛ z
    5 ⊛ z 263 ⊝ z 31 ⊛ (z 1128 ⊝ z 1129)),
(1177, z 463 ⊛ z 1113 ⊝ qt 2 ⊛ z 476 ⊛ z 1115),
(1178, z 4 ⊛ z 121 ⊝ z 3 ⊛ z 218)]

/-- _mooreriderlean2012.py:1705-1828 -/
def part11 : List (ℕ × E) := [
(1179, neg (z 1) ⊛ z 1144 ⊝ z 228 ⊛ z 1178),
(1180, z 1 ⊛ z 1145 ⊝ z 2 ⊛ z 1178),
(1181, z 2 ⊛ (z 4 ⊛ z 10 ⊝ z 3 ⊛ z 6 ⊛ z 9)),
(1182, z 2 ⊛ (z 4 ⊛ z 9 ⊹ z 3 ⊛ z 6 ⊛ z 10)),
(1183, z 23 ⊛ z 1181 ⊹ z 2 ⊛ z 3 ⊛ z 5 ⊛ z 6 ⊝ z 25 ⊛ z 1182),
(1184, z 27 ⊛ z 1181 ⊹ z 29 ⊛ z 1182 ⊹ z 66 ⊛ z 233 ⊹ z 69 ⊛ z 238 ⊝ z 3 ⊛ z 5 ⊛ z 122 ⊝ z 2 ⊛ z 3
    ⊛ z 5 ⊛ z 31),
(1185, z 461 ⊛ z 1116 ⊹ z 470 ⊛ z 1183 ⊹ qt 2 ⊛ z 468 ⊛ z 1115 ⊝ z 463 ⊛ z 1184),
(1186, z 1113 ⊛ (z 482 ⊛ z 484 ⊝ z 478 ⊛ z 480 ⊝ z 487 ⊛ z 489) ⊹ z 476 ⊛ (z 482 ⊛ z 1169 ⊹ z 484
    ⊛ z 1179 ⊝ z 478 ⊛ z 1173 ⊝ z 480 ⊛ z 1180 ⊝ z 487 ⊛ z 1185 ⊝ z 489 ⊛ z 1146)),
(1187, (z 1186 ⊛ (z 460 ⊛ z 519 ⊹ z 465 ⊛ z 487 ⊛ z 496 ⊝ z 224 ⊛ z 504 ⊝ z 475 ⊛ z 533 ⊝ z 472 ⊛
    z 487 ⊛ z 528) ⊝ z 494 ⊛ (z 460 ⊛ z 1125 ⊹ z 519 ⊛ z 1065 ⊹ z 465 ⊛ z 487 ⊛ z 1117 ⊹ z 465 ⊛ z
    496 ⊛ z 1146 ⊹ z 487 ⊛ z 496 ⊛ z 1140 ⊝ z 224 ⊛ z 1150 ⊝ z 475 ⊛ z 1175 ⊝ z 533 ⊛ z 1151 ⊝ rr
    ⊛ z 504 ⊛ z 1126 ⊝ z 472 ⊛ z 487 ⊛ z 1177 ⊝ z 472 ⊛ z 528 ⊛ z 1146 ⊝ z 487 ⊛ z 528 ⊛ z 1176))
    ⊘ pow (z 494) 2),
(1188, z 227 ⊛ (z 494 ⊛ z 1150 ⊝ z 504 ⊛ z 1186) ⊘ pow (z 494) 2),
(1189, z 5 ⊛ z 9 ⊛ z 1107 ⊹ z 449 ⊛ (z 3 ⊛ z 9 ⊝ z 4 ⊛ z 6 ⊛ z 10) ⊹ z 451 ⊛ (z 4 ⊛ z 10 ⊝ z 3 ⊛ z
    6 ⊛ z 9) ⊹ z 1093 ⊛ (z 3 ⊛ z 9 ⊝ z 4 ⊛ z 6 ⊛ z 10) ⊹ qt 2 ⊛ rf ⊛ z 1076 ⊛ (z 4 ⊛ z 9 ⊹ z 3 ⊛ z
    6 ⊛ z 10) ⊝ z 5 ⊛ z 10 ⊛ z 1102 ⊝ z 453 ⊛ (z 4 ⊛ z 9 ⊹ z 3 ⊛ z 6 ⊛ z 10) ⊝ z 1112 ⊛ (z 3 ⊛ z
    10 ⊹ z 4 ⊛ z 6 ⊛ z 9)),
(1190, z 32 ⊛ z 70 ⊝ z 28 ⊛ z 31 ⊝ z 3 ⊛ z 5 ⊛ z 70 ⊝ z 4 ⊛ z 5 ⊛ z 66),
(1191, n 2 ⊛ d3 ⊛ z 29 ⊛ (z 30 ⊹ z 69) ⊝ d2 ⊛ z 1190),
(1192, z 12 ⊛ z 1190 ⊹ n 2 ⊛ z 11 ⊛ z 29 ⊛ (z 30 ⊹ z 69)),
(1193, z 11 ⊛ z 1190 ⊝ n 2 ⊛ z 12 ⊛ z 29 ⊛ (z 30 ⊹ z 69)),
(1194, z 11 ⊛ z 39 ⊛ z 1192 ⊹ qt 2 ⊛ rf ⊛ z 11 ⊛ z 96 ⊛ z 1076 ⊝ z 11 ⊛ z 40 ⊛ z 1193 ⊝ z 12 ⊛ z
    39 ⊛ z 1193 ⊝ z 12 ⊛ z 40 ⊛ z 1192 ⊝ qt 2 ⊛ rf ⊛ z 11 ⊛ z 93 ⊛ z 1072 ⊝ qt 2 ⊛ rf ⊛ z 12 ⊛ z
    93 ⊛ z 1076 ⊝ qt 2 ⊛ rf ⊛ z 12 ⊛ z 96 ⊛ z 1072),
(1195, z 69 ⊛ z 258 ⊹ z 29 ⊛ (z 1191 ⊹ z 1194)),
(1196, (z 1186 ⊛ (z 477 ⊛ z 533 ⊹ z 467 ⊛ z 487 ⊛ z 496 ⊹ z 474 ⊛ z 487 ⊛ z 528) ⊝ z 494 ⊛ (z 477
    ⊛ z 1175 ⊹ z 533 ⊛ z 1189 ⊹ z 467 ⊛ z 487 ⊛ z 1117 ⊹ z 467 ⊛ z 496 ⊛ z 1146 ⊹ z 474 ⊛ z 487 ⊛
    z 1177 ⊹ z 474 ⊛ z 528 ⊛ z 1146 ⊹ z 487 ⊛ z 528 ⊛ z 1195 ⊹ z 25 ⊛ z 487 ⊛ z 496 ⊛ (z 1191 ⊹ z
    1194))) ⊘ pow (z 494) 2),
(1197, z 1196 ⊛ u7 ⊝ z 1187 ⊛ u4 ⊝ z 1188 ⊛ u6),
(1198, (pow (z 3) 2 ⊹ pow (z 4) 2) ⊛ (z 5 ⊛ z 8 ⊹ z 6 ⊛ z 7)),
(1199, (pow (z 3) 2 ⊹ pow (z 4) 2) ⊛ (z 5 ⊛ z 7 ⊝ z 6 ⊛ z 8)),
(1200, rr ⊛ (z 54 ⊛ z 1198 ⊝ z 54 ⊛ z 63 ⊝ z 55 ⊛ z 1199 ⊝ z 60 ⊛ z 220)),
(1201, z 3 ⊛ z 5 ⊛ z 10 ⊛ z 43),
(1202, d1 ⊛ z 3 ⊛ z 6 ⊛ z 43),
(1203, d2 ⊛ z 1201 ⊹ z 6 ⊛ z 9 ⊛ z 118 ⊝ z 10 ⊛ z 1202),
(1204, z 4 ⊛ z 5 ⊛ z 9 ⊛ z 25 ⊝ z 6 ⊛ z 9 ⊛ z 29 ⊝ z 6 ⊛ z 10 ⊛ z 27 ⊝ z 4 ⊛ z 5 ⊛ z 10 ⊛ z 23),
(1205, z 4 ⊛ z 5 ⊛ z 6 ⊛ z 10 ⊝ z 5 ⊛ z 29 ⊝ z 4 ⊛ z 6 ⊛ z 25 ⊝ z 6 ⊛ z 10 ⊛ z 31),
(1206, n 2 ⊛ z 33 ⊛ z 1205 ⊹ n 2 ⊛ z 34 ⊛ z 1204),
(1207, (n 2 ⊛ z 36 ⊛ z 1204 ⊝ z 34 ⊛ z 1206 ⊘ hpow (z 35) 1) ⊘ pow (z 36) 2),
(1208, z 40 ⊛ z 1201 ⊹ qt 2 ⊛ rf ⊛ z 82 ⊛ z 1207),
(1209, z 3 ⊛ z 5 ⊛ z 9 ⊛ z 43),
(1210, d2 ⊛ z 1209 ⊝ d3 ⊛ z 3 ⊛ z 6 ⊛ z 43),
(1211, z 1210 ⊝ z 9 ⊛ z 1202 ⊝ z 6 ⊛ z 10 ⊛ z 118),
(1212, (n 2 ⊛ z 36 ⊛ z 1205 ⊝ z 33 ⊛ z 1206 ⊘ hpow (z 35) 1) ⊘ pow (z 36) 2),
(1213, z 3 ⊛ (z 6 ⊛ z 11 ⊹ z 5 ⊛ z 9 ⊛ z 12)),
(1214, z 3 ⊛ (z 6 ⊛ z 12 ⊝ z 5 ⊛ z 9 ⊛ z 11)),
(1215, z 12 ⊛ z 40 ⊛ z 43 ⊛ z 1213 ⊹ qt 2 ⊛ rf ⊛ z 11 ⊛ z 94 ⊛ z 1212 ⊝ z 11 ⊛ z 39 ⊛ z 43 ⊛ z
    1213 ⊝ z 11 ⊛ z 40 ⊛ z 43 ⊛ z 1214 ⊝ z 12 ⊛ z 39 ⊛ z 43 ⊛ z 1214 ⊝ qt 2 ⊛ rf ⊛ z 11 ⊛ z 90 ⊛ z
    1207 ⊝ qt 2 ⊛ rf ⊛ z 12 ⊛ z 90 ⊛ z 1212 ⊝ qt 2 ⊛ rf ⊛ z 12 ⊛ z 94 ⊛ z 1207),
(1216, neg d3 ⊛ z 1201 ⊝ z 5 ⊛ z 118),
(1217, z 39 ⊛ z 1201 ⊹ qt 2 ⊛ rf ⊛ z 82 ⊛ z 1212),
(1218, z 4 ⊛ z 6 ⊛ z 262 ⊹ z 4 ⊛ z 5 ⊛ z 9 ⊛ z 257 ⊹ z 27 ⊛ (z 1203 ⊹ z 1208) ⊹ z 29 ⊛ (z 1211 ⊹ z
    1215) ⊝ z 4 ⊛ z 5 ⊛ z 10 ⊛ z 259 ⊝ z 31 ⊛ (z 1216 ⊝ z 1217)),
(1219, neg (z 6) ⊛ z 29 ⊝ z 4 ⊛ z 10 ⊛ pow (z 5) 2),
(1220, z 33 ⊛ z 1219 ⊹ z 410 ⊛ z 1205),
(1221, (n 2 ⊛ z 35 ⊛ z 1220 ⊝ z 415 ⊛ z 1206) ⊘ hpow (z 35) 3),
(1222, (n 2 ⊛ z 33 ⊛ z 417 ⊛ z 1206 ⊘ hpow (z 35) 1 ⊹ z 36 ⊛ (n 2 ⊛ z 36 ⊛ z 1219 ⊝ n 2 ⊛ z 417 ⊛
    z 1205 ⊝ z 33 ⊛ z 1221 ⊝ z 410 ⊛ z 1206 ⊘ hpow (z 35) 1)) ⊘ pow (z 36) 3),
(1223, (z 34 ⊛ z 36 ⊛ z 1221 ⊹ n 2 ⊛ z 36 ⊛ z 417 ⊛ z 1204 ⊝ n 2 ⊛ z 34 ⊛ z 417 ⊛ z 1206 ⊘ hpow (z
    35) 1) ⊘ pow (z 36) 3),
(1224, qt 2 ⊛ rf ⊛ z 32 ⊛ z 1223 ⊝ z 3 ⊛ z 6 ⊛ z 429 ⊝ qt 2 ⊛ rf ⊛ z 28 ⊛ z 1222 ⊝ z 3 ⊛ z 5 ⊛ z 9
    ⊛ z 441),
(1225, z 25 ⊛ z 1204 ⊝ z 6 ⊛ z 10 ⊛ z 34),
(1226, (n 2 ⊛ z 35 ⊛ z 1225 ⊝ z 412 ⊛ z 1206) ⊘ hpow (z 35) 3),
(1227, (n 2 ⊛ z 34 ⊛ z 418 ⊛ z 1206 ⊘ hpow (z 35) 1 ⊝ z 36 ⊛ (z 34 ⊛ z 1226 ⊹ n 2 ⊛ z 418 ⊛ z 1204
    ⊹ n 2 ⊛ z 6 ⊛ z 10 ⊛ z 36 ⊹ z 25 ⊛ z 1206 ⊘ hpow (z 35) 1)) ⊘ pow (z 36) 3),
(1228, (z 33 ⊛ z 36 ⊛ z 1226 ⊹ n 2 ⊛ z 36 ⊛ z 418 ⊛ z 1205 ⊝ n 2 ⊛ z 33 ⊛ z 418 ⊛ z 1206 ⊘ hpow (z
    35) 1) ⊘ pow (z 36) 3),
(1229, qt 2 ⊛ rf ⊛ z 32 ⊛ z 1227 ⊹ z 3 ⊛ z 5 ⊛ z 9 ⊛ z 444 ⊝ z 3 ⊛ z 6 ⊛ z 432 ⊝ qt 2 ⊛ rf ⊛ z 28
    ⊛ z 1228),
(1230, z 25 ⊛ z 1205 ⊝ z 6 ⊛ z 10 ⊛ z 33),
(1231, (n 2 ⊛ z 35 ⊛ z 1230 ⊝ z 416 ⊛ z 1206) ⊘ hpow (z 35) 3),
(1232, (n 2 ⊛ z 33 ⊛ z 420 ⊛ z 1206 ⊘ hpow (z 35) 1 ⊝ z 36 ⊛ (z 33 ⊛ z 1231 ⊹ n 2 ⊛ z 420 ⊛ z 1205
    ⊹ n 2 ⊛ z 6 ⊛ z 10 ⊛ z 36 ⊹ z 25 ⊛ z 1206 ⊘ hpow (z 35) 1)) ⊘ pow (z 36) 3),
(1233, (z 34 ⊛ z 36 ⊛ z 1231 ⊹ n 2 ⊛ z 36 ⊛ z 420 ⊛ z 1204 ⊝ n 2 ⊛ z 34 ⊛ z 420 ⊛ z 1206 ⊘ hpow (z
    35) 1) ⊘ pow (z 36) 3),
(1234, z 3 ⊛ z 6 ⊛ z 434 ⊹ qt 2 ⊛ rf ⊛ z 28 ⊛ z 1232 ⊝ qt 2 ⊛ rf ⊛ z 32 ⊛ z 1233 ⊝ z 3 ⊛ z 5 ⊛ z 9
    ⊛ z 443),
(1235, z 29 ⊛ z 1204 ⊝ z 4 ⊛ z 5 ⊛ z 10 ⊛ z 34),
(1236, (n 2 ⊛ z 35 ⊛ z 1235 ⊝ z 414 ⊛ z 1206) ⊘ hpow (z 35) 3),
(1237, (n 2 ⊛ z 34 ⊛ z 419 ⊛ z 1206 ⊘ hpow (z 35) 1 ⊝ z 36 ⊛ (z 34 ⊛ z 1236 ⊹ n 2 ⊛ z 419 ⊛ z 1204
    ⊹ z 29 ⊛ z 1206 ⊘ hpow (z 35) 1 ⊹ n 2 ⊛ z 4 ⊛ z 5 ⊛ z 10 ⊛ z 36)) ⊘ pow (z 36) 3),
(1238, (z 33 ⊛ z 36 ⊛ z 1236 ⊹ n 2 ⊛ z 36 ⊛ z 419 ⊛ z 1205 ⊝ n 2 ⊛ z 33 ⊛ z 419 ⊛ z 1206 ⊘ hpow (z
    35) 1) ⊘ pow (z 36) 3),
(1239, qt 2 ⊛ rf ⊛ z 32 ⊛ z 1237 ⊹ z 3 ⊛ z 5 ⊛ z 9 ⊛ z 445 ⊝ z 3 ⊛ z 6 ⊛ z 433 ⊝ qt 2 ⊛ rf ⊛ z 28
    ⊛ z 1238),
(1240, n 2 ⊛ z 27 ⊛ z 1204 ⊹ n 2 ⊛ z 31 ⊛ z 1205 ⊹ n 2 ⊛ z 4 ⊛ z 5 ⊛ z 9 ⊛ z 34 ⊝ n 2 ⊛ z 4 ⊛ z 6
    ⊛ z 33),
(1241, (n 2 ⊛ z 35 ⊛ z 1240 ⊝ z 413 ⊛ z 1206) ⊘ hpow (z 35) 3),
(1242, (n 2 ⊛ z 33 ⊛ z 422 ⊛ z 1206 ⊘ hpow (z 35) 1 ⊝ z 36 ⊛ (z 33 ⊛ z 1241 ⊹ n 2 ⊛ z 422 ⊛ z 1205
    ⊹ n 4 ⊛ z 4 ⊛ z 6 ⊛ z 36 ⊹ n 2 ⊛ z 31 ⊛ z 1206 ⊘ hpow (z 35) 1)) ⊘ pow (z 36) 3),
(1243, (n 2 ⊛ z 1206 ⊛ (z 27 ⊛ z 36 ⊝ z 34 ⊛ z 422) ⊘ hpow (z 35) 1 ⊹ z 36 ⊛ (z 34 ⊛ z 1241 ⊹ n 2
    ⊛ z 422 ⊛ z 1204 ⊝ n 4 ⊛ z 4 ⊛ z 5 ⊛ z 9 ⊛ z 36)) ⊘ pow (z 36) 3),
(1244, qt 1 ⊛ rf ⊛ z 28 ⊛ z 1242 ⊝ qt 2 ⊛ z 3 ⊛ z 6 ⊛ z 431 ⊝ qt 1 ⊛ rf ⊛ z 32 ⊛ z 1243 ⊝ qt 2 ⊛ z
    3 ⊛ z 5 ⊛ z 9 ⊛ z 442),
(1245, n 2 ⊛ z 23 ⊛ z 1204 ⊝ n 2 ⊛ z 5 ⊛ z 33 ⊝ n 2 ⊛ z 6 ⊛ z 1205 ⊝ n 2 ⊛ z 6 ⊛ z 9 ⊛ z 34),
(1246, (n 2 ⊛ z 35 ⊛ z 1245 ⊝ z 411 ⊛ z 1206) ⊘ hpow (z 35) 3),
(1247, (n 2 ⊛ z 34 ⊛ z 421 ⊛ z 1206 ⊘ hpow (z 35) 1 ⊝ z 36 ⊛ (z 34 ⊛ z 1246 ⊹ n 2 ⊛ z 421 ⊛ z 1204
    ⊹ n 4 ⊛ z 6 ⊛ z 9 ⊛ z 36 ⊹ n 2 ⊛ z 23 ⊛ z 1206 ⊘ hpow (z 35) 1)) ⊘ pow (z 36) 3),
(1248, (n 2 ⊛ z 33 ⊛ z 421 ⊛ z 1206 ⊘ hpow (z 35) 1 ⊝ z 36 ⊛ (z 33 ⊛ z 1246 ⊹ n 2 ⊛ z 421 ⊛ z 1205
    ⊹ n 4 ⊛ z 5 ⊛ z 36 ⊝ n 2 ⊛ z 6 ⊛ z 1206 ⊘ hpow (z 35) 1)) ⊘ pow (z 36) 3),
(1249, qt 1 ⊛ rf ⊛ z 28 ⊛ z 1248 ⊹ qt 1 ⊛ rf ⊛ z 32 ⊛ z 1247 ⊹ qt 2 ⊛ z 3 ⊛ z 5 ⊛ z 9 ⊛ z 446 ⊝ qt
    2 ⊛ z 3 ⊛ z 6 ⊛ z 430),
(1250, z 1224 ⊹ d1 ⊛ z 3 ⊛ z 6 ⊹ z 3 ⊛ z 6 ⊛ z 9 ⊛ z 449 ⊹ z 4 ⊛ z 5 ⊛ z 9 ⊛ z 1229 ⊹ z 4 ⊛ z 6 ⊛
    z 10 ⊛ z 451 ⊝ z 3 ⊛ z 5 ⊛ z 448 ⊝ z 4 ⊛ z 5 ⊛ z 455 ⊝ z 4 ⊛ z 6 ⊛ z 1234 ⊝ z 5 ⊛ z 9 ⊛ z 454
    ⊝ z 5 ⊛ z 10 ⊛ z 452 ⊝ z 6 ⊛ z 9 ⊛ z 1239 ⊝ z 6 ⊛ z 10 ⊛ z 1244 ⊝ z 4 ⊛ z 5 ⊛ z 10 ⊛ z 1249 ⊝
    z 4 ⊛ z 6 ⊛ z 9 ⊛ z 453 ⊝ qt 2 ⊛ rf ⊛ z 3 ⊛ z 6 ⊛ z 1207 ⊝ qt 2 ⊛ rf ⊛ z 3 ⊛ z 5 ⊛ z 9 ⊛ z
    1212),
(1251, z 473 ⊛ z 1250 ⊹ z 476 ⊛ z 1218)]

end BP.EL

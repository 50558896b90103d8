import Verif.Lemmas.DynamicsParts
import Verif.Lemmas.DynamicsRates
import Verif.Props.Determined

/-!
# The power of the forces that accelerate the bodies
-/

set_option linter.unusedSimpArgs false

namespace BP.EL

open BP.Spec Matrix

/-- A memory with more cells. -/
def moreCells (m : ℕ → ℝ) (a w : Nine ℝ) : ℕ → ℝ := fun l =>
  if l < 6001 then m l
  else [a.n1, a.n2, a.n3, a.n4, a.n5, a.n6, a.n7, a.n8, a.n9, 0, w.n1, w.n2, w.n3, w.n4, w.n5, w.n6, w.n7, w.n8,
    w.n9].getD (l - 6001) 0

theorem body_below : (body.all fun s => (Nat.blt s.1 6001).and (s.2.reads (2 ^ 6001 - 1))) = true := by decide +kernel

theorem bits_below {n l : ℕ} (h : Nat.testBit (2 ^ n - 1) l = true) : l < n := by
  rwa [Nat.testBit_two_pow_sub_one, decide_eq_true_eq] at h

theorem more_agrees {m : ℕ → ℝ} (heq : Agrees m) (a w : Nine ℝ) : Agrees (moreCells m a w) := by
  intro s hs
  have h := List.all_eq_true.mp body_below s hs
  rw [Bool.and_eq_true] at h
  obtain ⟨h1, h2⟩ := h
  have e : ∀ l, Nat.testBit (2 ^ 6001 - 1) l = true → m l = moreCells m a w l := by
    intro l hl
    exact (if_pos (bits_below hl)).symm
  have e1 : moreCells m a w s.1 = m s.1 := if_pos (by simpa [Nat.blt_eq] using h1)
  rw [e1, heq s hs]
  exact val_congr real _ _ _ _ h2 e

theorem more_dependent {m : ℕ → ℝ} {v a w : Nine ℝ} {j1 j2 j3 j4 j5 : ℝ} (h : Dependent m v j1 j2 j3 j4 j5) :
    Dependent (moreCells m a w) v j1 j2 j3 j4 j5 := by
  have e : ∀ l, l < 6001 → moreCells m a w l = m l := fun l hl => if_pos hl
  obtain ⟨h1, h2, h3, h4, h5⟩ := h
  refine ⟨h1.trans ?_, h2.trans ?_, h3.trans ?_, h4.trans ?_, h5.trans ?_⟩
  all_goals
    simp only [e 538 (by norm_num), e 539 (by norm_num), e 540 (by norm_num), e 519 (by norm_num), e 487 (by norm_num),
      e 496 (by norm_num), e 504 (by norm_num), e 533 (by norm_num), e 528 (by norm_num), e 494 (by norm_num),
      e 541 (by norm_num), e 542 (by norm_num), e 543 (by norm_num), e 523 (by norm_num), e 482 (by norm_num),
      e 509 (by norm_num), e 534 (by norm_num), e 544 (by norm_num), e 545 (by norm_num), e 546 (by norm_num),
      e 525 (by norm_num), e 478 (by norm_num), e 511 (by norm_num), e 535 (by norm_num), e 547 (by norm_num),
      e 548 (by norm_num), e 536 (by norm_num), e 549 (by norm_num), e 550 (by norm_num), e 551 (by norm_num),
      e 526 (by norm_num), e 532 (by norm_num), e 512 (by norm_num), e 527 (by norm_num), e 537 (by norm_num)]

/-- The powers, for any accelerations that fit the rolling conditions. -/
theorem power_rows {m : ℕ → ℝ} (heq : Agrees m) (a w : Nine ℝ)
    (ha : Dependent m a (m 553) (m 568) (m 620) (m 628) (m 664)) (hw : Dependent m w 0 0 0 0 0) :
    let k := confCells.map m
    let H := heavyCells.map m
    let f := centred reals k H (bodies reals k (speedCells.map m) a)
    let g := centred reals k H (bodies reals k w w)
    inertia5 reals H f g = m 5053 * weight5 reals H g + m 5044 * w.n4 + m 5045 * w.n6 + m 5046 * w.n7 +
      (m 5047 + m 407) * w.n9 +
      (w.n4 * (m 949 * a.n4 + m 950 * a.n6 + m 951 * a.n7 + m 945 * a.n9 + m 952 - m 753) +
      w.n6 * (m 963 * a.n4 + m 964 * a.n6 + m 965 * a.n7 + m 960 * a.n9 + m 966 - m 754) +
      w.n7 * (m 977 * a.n4 + m 978 * a.n6 + m 979 * a.n7 + m 973 * a.n9 + m 980 - m 755) +
      w.n9 * (m 981 * a.n4 + m 982 * a.n6 + m 983 * a.n7 + m 905 * a.n9 + m 984 - m 756)) := by
  have e : ∀ l, l < 6001 → moreCells m a w l = m l := fun l hl => if_pos hl
  obtain ⟨M, hM⟩ : ∃ M, M = moreCells m a w := ⟨_, rfl⟩
  have ea : accCells.map M = a := by rw [hM]; simp [accCells, Nine.map, moreCells]
  have ew : otherCells.map M = w := by rw [hM]; simp [otherCells, Nine.map, moreCells]
  have eM : Agrees M := by rw [hM]; exact more_agrees heq a w
  have dw : Dependent M w 0 0 0 0 0 := by rw [hM]; exact more_dependent hw
  have da : Dependent M a (M 553) (M 568) (M 620) (M 628) (M 664) := by
    rw [hM, e 553 (by norm_num), e 568 (by norm_num), e 620 (by norm_num), e 628 (by norm_num), e 664 (by norm_num)]
    exact more_dependent ha
  rw [← hM] at e
  have S := dyn_rows_form eM (by rw [ea]; exact da) (by rw [ew]; exact dw)
  obtain ⟨i, γ4, γ5, γ7, γ9, g1, g2, g3, g4, g5⟩ := dyn_motion eM
  have ek : confCells.map M = confCells.map m := by
    unfold confCells Conf.map; dsimp only
    congr 1 <;> exact e _ (by norm_num)
  have eH : heavyCells.map M = heavyCells.map m := by
    unfold heavyCells Heavy.map; dsimp only
    congr 1 <;> exact e _ (by norm_num)
  have es : speedCells.map M = speedCells.map m := by
    unfold speedCells Nine.map; dsimp only
    congr 1 <;> exact e _ (by norm_num)
  rw [ek, eH, ew] at g1
  rw [ek, eH, ew, ea, es, S] at i
  have w4 : M 6014 = w.n4 := congrArg Nine.n4 ew
  have w5 : M 6015 = w.n5 := congrArg Nine.n5 ew
  have w6 : M 6016 = w.n6 := congrArg Nine.n6 ew
  have w7 : M 6017 = w.n7 := congrArg Nine.n7 ew
  have w9 : M 6019 = w.n9 := congrArg Nine.n9 ew
  have a4 : M 6004 = a.n4 := congrArg Nine.n4 ea
  have a6 : M 6006 = a.n6 := congrArg Nine.n6 ea
  have a7 : M 6007 = a.n7 := congrArg Nine.n7 ea
  have a9 : M 6009 = a.n9 := congrArg Nine.n9 ea
  rw [w4, w5, w7, w9, e 5053 (by norm_num)] at g1
  rw [e 753 (by norm_num), e 5044 (by norm_num), e 547 (by norm_num)] at g2
  rw [e 754 (by norm_num), e 5045 (by norm_num)] at g3
  rw [e 755 (by norm_num), e 5046 (by norm_num), e 548 (by norm_num)] at g4
  rw [e 756 (by norm_num), e 5047 (by norm_num), e 407 (by norm_num)] at g5
  rw [w4, w6, w7, w9, a4, a6, a7, a9, e 949 (by norm_num), e 950 (by norm_num), e 951 (by norm_num), e 945 (by norm_num), e 952 (by norm_num), e 963 (by norm_num), e 964 (by norm_num), e 965 (by norm_num), e 960 (by norm_num), e 966 (by norm_num), e 977 (by norm_num), e 978 (by norm_num), e 979 (by norm_num), e 973 (by norm_num), e 980 (by norm_num), e 981 (by norm_num), e 982 (by norm_num), e 983 (by norm_num), e 905 (by norm_num), e 984 (by norm_num)] at i
  have n5 := hw.n5
  intro k H f g
  refine i.trans ?_
  linear_combination -g1 + γ5 * (by simpa using n5 : w.n5 = m 547 * w.n4 + m 548 * w.n7) * (-1) + w.n4 * g2 +
    w.n6 * g3 + w.n7 * g4 + w.n9 * g5

/-- The powers. -/
theorem power_cells {m : ℕ → ℝ} (heq : Agrees m) (h : m 1001 ≠ 0) (a w : Nine ℝ)
    (ha : Dependent m a (m 553) (m 568) (m 620) (m 628) (m 664)) (hw : Dependent m w 0 0 0 0 0)
    (a4 : a.n4 = m 5099) (a6 : a.n6 = m 5100) (a7 : a.n7 = m 5101) (a9 : a.n9 = m 5102) :
    let k := confCells.map m
    let H := heavyCells.map m
    let f := centred reals k H (bodies reals k (speedCells.map m) a)
    let g := centred reals k H (bodies reals k w w)
    inertia5 reals H f g = m 5053 * weight5 reals H g + m 5044 * w.n4 + m 5045 * w.n6 + m 5046 * w.n7 +
      (m 5047 + m 407) * w.n9 := by
  obtain ⟨t4, t6, t7, t9⟩ := dyn_hold heq h
  intro k H f g
  refine (power_rows heq a w ha hw).trans ?_
  rw [a4, a6, a7, a9, t4, t6, t7, t9]
  ring

end BP.EL

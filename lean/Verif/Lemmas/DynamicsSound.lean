import Verif.Lemmas.DynamicsInertia

/-!
# The equations of motion in numbers
-/

set_option linter.unusedSimpArgs false

namespace BP.EL

section

variable {F : Type} (o : FieldOps F)

/-- The bodies of the bicycle. -/
def bodies (k : Conf F) (u a : Nine F) : Five F :=
  let fC := toC o k u a (toA o k u a (toB o k u a (frN o u a)))
  let fE := toE o k u a fC
  ⟨fC, toD o k u a fC, fE, toF o k u a fE, toG o k u a (toH o k fC)⟩

end

/-- Equal velocities. -/
def SameV (f g : Fr ℝ) : Prop := f.v = g.v ∧ f.w = g.w ∧ f.dn = g.dn

theorem SameV.joint {f g : Fr ℝ} (h : SameV f g) (d : Tri ℝ) (ax : Axis) (c s u a : ℝ) :
    SameV (jointOf reals f d ax c s u a) (jointOf reals g d ax c s u a) := by
  obtain ⟨h1, h2, h3⟩ := h
  simp [SameV, jointOf, h1, h2, h3]

theorem SameV.shift {f g : Fr ℝ} (h : SameV f g) (d : Tri ℝ) : SameV (shiftOf reals f d) (shiftOf reals g d) := by
  obtain ⟨h1, h2, h3⟩ := h
  simp [SameV, shiftOf, h1, h2, h3]

theorem SameV.trans {f g k : Fr ℝ} (h : SameV f g) (h' : SameV g k) : SameV f k :=
  ⟨h.1.trans h'.1, h.2.1.trans h'.2.1, h.2.2.trans h'.2.2⟩

/-- Equal velocities of five bodies. -/
def SameV5 (f g : Five ℝ) : Prop :=
  SameV f.fC g.fC ∧ SameV f.fD g.fD ∧ SameV f.fE g.fE ∧ SameV f.fF g.fF ∧ SameV f.fG g.fG

theorem SameV5.centred {f g : Five ℝ} (h : SameV5 f g) (k : Conf ℝ) (w : Heavy ℝ) :
    SameV5 (centred reals k w f) (centred reals k w g) :=
  ⟨h.1.shift _, h.2.1, h.2.2.1.shift _, h.2.2.2.1, h.2.2.2.2.shift _⟩

theorem SameV5.inertia {f g : Five ℝ} (h : SameV5 f g) (w : Heavy ℝ) (k : Five ℝ) :
    inertia5 reals w k f = inertia5 reals w k g := by
  obtain ⟨⟨a1, a2, -⟩, ⟨b1, b2, -⟩, ⟨c1, c2, -⟩, ⟨d1, d2, -⟩, ⟨e1, e2, -⟩⟩ := h
  simp only [inertia5, inertial, a1, a2, b1, b2, c1, c2, d1, d2, e1, e2]

theorem SameV5.weight {f g : Five ℝ} (h : SameV5 f g) (w : Heavy ℝ) : weight5 reals w f = weight5 reals w g := by
  obtain ⟨⟨a1, -, a2⟩, ⟨b1, -, b2⟩, ⟨c1, -, c2⟩, ⟨d1, -, d2⟩, ⟨e1, -, e2⟩⟩ := h
  simp only [weight5, sinking, a1, a2, b1, b2, c1, c2, d1, d2, e1, e2]

theorem veq_sound {a b : Tri PolyQ} (h : veq a b = true) (x : ℕ → ℝ) : a.map (qeval x) = b.map (qeval x) := by
  simp only [veq, Bool.and_eq_true] at h
  simp [Tri.map, qeq_sound h.1 x, qeq_sound h.2.1 x, qeq_sound h.2.2 x]

theorem freq_sound {f g : Fr PolyQ} (h : freq f g = true) (x : ℕ → ℝ) : f.map (qeval x) = g.map (qeval x) := by
  simp only [freq, Bool.and_eq_true] at h
  simp [Fr.map, veq_sound h.1 x, veq_sound h.2.1 x, veq_sound h.2.2.1 x, veq_sound h.2.2.2.1 x, veq_sound h.2.2.2.2 x]

theorem fveq_sound {f g : Fr PolyQ} (h : fveq f g = true) (x : ℕ → ℝ) : SameV (f.map (qeval x)) (g.map (qeval x)) := by
  simp only [fveq, Bool.and_eq_true] at h
  exact ⟨veq_sound h.1 x, veq_sound h.2.1 x, veq_sound h.2.2 x⟩

theorem polys_respect {x : ℕ → ℝ} (h : Pyth x dyn.angles) : Respects polys (qeval x) where
  zero := by simp [polys, qeval, peval]
  one := by simp [polys, qeval, peval, mono_one]
  add := qeval_add
  neg := qeval_neg
  mul p q := by
    unfold polys qeval
    dsimp only
    rw [peval_tmul h, show Nat.add p.2 q.2 = p.2 + q.2 from rfl, pow_add]
    field_simp

variable {m : ℕ → ℝ}

theorem bit_lor (M l : ℕ) : Nat.testBit (Nat.lor M (Nat.shiftLeft (2 ^ 19 - 1) 6001)) l = true ↔
    Nat.testBit M l = true ∨ (6001 ≤ l ∧ l < 6020) := by
  change (M ||| ((2 ^ 19 - 1) <<< 6001)).testBit l = true ↔ _
  rw [Nat.testBit_or, Nat.testBit_shiftLeft, Bool.or_eq_true, Bool.and_eq_true, Nat.testBit_two_pow_sub_one]
  simp only [decide_eq_true_eq]
  exact or_congr Iff.rfl ⟨fun h => by omega, fun h => by omega⟩

/-- The values of the cells that the motion depends on. -/
theorem dyn_cells (heq : Agrees m) : ∃ x : ℕ → ℝ, Pyth x dyn.angles ∧
    (Real.cos (m dyn.rot) = x 2 ∧ Real.sin (m dyn.rot) = x 3 ∧ x 7 = (m 494)⁻¹) ∧
    (∀ l, Nat.testBit (Nat.lor rateMarks (Nat.shiftLeft (2 ^ 19 - 1) 6001)) l = true →
      ∀ q, jval dynTable l = some q → m l = qeval x q) ∧
    ∀ l ∈ usedCells ++ dynMore, qeval x (cellPoly l) = m l := by
  obtain ⟨h1, h2, h3⟩ := table_cells dyn_setup dyn_ok heq
  refine ⟨_, h1, ⟨?_, ?_, ?_⟩, ?_, ?_⟩
  · simp [tvars, dyn]
  · simp [tvars, dyn]
  · simp [tvars]
  · intro l hl q hq
    have e : Nat.testBit rateMarks l = true ∨ l ∈ dynMore ∨ l = 6010 := by
      rcases (bit_lor rateMarks l).mp hl with h | h
      · exact .inl h
      · right
        simp only [dynMore, List.mem_append, List.mem_range'_1]
        omega
    rcases e with h | h | rfl
    · exact h2 l h q hq
    · exact h3 l h q hq
    · revert hq
      rw [show jval dynTable 6010 = none by decide +kernel]
      nofun
  · intro l hl
    rw [List.mem_append] at hl
    rcases hl with h | h
    · have e := List.all_eq_true.mp dyn_used l h
      simp only [Bool.and_eq_true, Option.isSome_iff_exists] at e
      obtain ⟨e, q, hq⟩ := e
      rw [cellPoly, hq]
      exact (h2 l e q hq).symm
    · have e := List.all_eq_true.mp dyn_more l h
      simp only [Option.isSome_iff_exists] at e
      obtain ⟨q, hq⟩ := e
      rw [cellPoly, hq]
      exact (h3 l h q hq).symm

theorem dyn_row (heq : Agrees m) {s : ℕ × E} (hs : s ∈ dynRows) : m s.1 = s.2.val real m := by
  obtain ⟨x, hp, ⟨hc, hs', h7⟩, h, -⟩ := dyn_cells heq
  have hr := List.all_eq_true.mp dyn_rows s hs
  simp only [dynRowOk, Bool.and_eq_true] at hr
  obtain ⟨⟨h1, h2⟩, h3⟩ := hr
  have h' : ∀ l, Nat.testBit rateMarks l = true → ∀ q, jval dynTable l = some q → m l = qeval x q := by
    exact fun l hl => h l ((bit_lor rateMarks l).mpr (.inl hl))
  unfold qeqOO at h3
  split at h3
  · cases h3
  · rename_i q hq
    obtain ⟨p', e1, e2⟩ := qeqO_some h3 x
    rw [h' _ h2 q hq, ← e2]
    exact (tpoly_sound (T := dyn) hp hc hs' rateMarks (fun _ => h7) h' s.2 h1 _ e1).symm

/-- The motion of the bodies fits the equations of motion. -/
theorem dyn_motion (heq : Agrees m) :
    let k := confCells.map m
    let w := heavyCells.map m
    let f := centred reals k w (bodies reals k (speedCells.map m) (accCells.map m))
    let g := centred reals k w (bodies reals k (otherCells.map m) (otherCells.map m))
    inertia5 reals w f g = dynRow.val real m ∧
    ∃ γ4 γ5 γ7 γ9, m 5053 * weight5 reals w g = m 6014 * γ4 + m 6015 * γ5 + m 6017 * γ7 + m 6019 * γ9 ∧
      m 753 = m 5044 + γ4 + m 547 * γ5 ∧ m 754 = m 5045 ∧ m 755 = m 5046 + γ7 + m 548 * γ5 ∧
      m 756 = m 5047 + m 407 + γ9 := by
  obtain ⟨x, hp, ⟨hc, hs', h7⟩, h, hv⟩ := dyn_cells heq
  have he := polys_respect hp
  have ek : confP.map (qeval x) = confCells.map m := by
    simp only [confP, confCells, Conf.map]
    congr 1 <;> exact hv _ (by decide +kernel)
  have eu : speedP.map (qeval x) = speedCells.map m := by
    simp only [speedP, speedCells, Nine.map]
    congr 1 <;> exact hv _ (by decide +kernel)
  have ea : accP.map (qeval x) = accCells.map m := by
    simp only [accP, accCells, Nine.map]
    congr 1 <;> exact hv _ (by decide +kernel)
  have eo : otherP.map (qeval x) = otherCells.map m := by
    simp only [otherP, otherCells, Nine.map]
    congr 1 <;> exact hv _ (by decide +kernel)
  have eh : heavyP.map (qeval x) = heavyCells.map m := by
    simp only [heavyP, heavyCells, Heavy.map]
    congr 1 <;> exact hv _ (by decide +kernel)
  have hf : bodies reals (confCells.map m) (speedCells.map m) (accCells.map m) = dynFive.map (qeval x) := by
    have d := dyn_frames
    simp only [Bool.and_eq_true] at d
    obtain ⟨⟨⟨⟨⟨⟨⟨d1, d2⟩, d3⟩, d4⟩, d5⟩, d6⟩, d7⟩, d8⟩ := d
    have d1 := freq_sound d1 x
    have d2 := freq_sound d2 x
    have d3 := freq_sound d3 x
    have d4 := freq_sound d4 x
    have d5 := freq_sound d5 x
    have d6 := freq_sound d6 x
    have d7 := freq_sound d7 x
    have d8 := freq_sound d8 x
    rw [map_toB he, map_frN he, ek, eu, ea] at d1
    rw [map_toA he, ek, eu, ea] at d2
    rw [map_toC he, ek, eu, ea] at d3
    rw [map_toD he, ek, eu, ea] at d4
    rw [map_toE he, ek, eu, ea] at d5
    rw [map_toF he, ek, eu, ea] at d6
    rw [map_toH he, ek] at d7
    rw [map_toG he, ek, eu, ea] at d8
    simp only [bodies, d1, d2, d3, d4, d5, d6, d7, d8, dynFive, Five.map]
  have hg : SameV5 (bodies reals (confCells.map m) (otherCells.map m) (otherCells.map m)) (virFive.map (qeval x)) := by
    have d := vir_frames
    simp only [Bool.and_eq_true] at d
    obtain ⟨⟨⟨⟨⟨⟨⟨d1, d2⟩, d3⟩, d4⟩, d5⟩, d6⟩, d7⟩, d8⟩ := d
    have d1 := fveq_sound d1 x
    have d2 := fveq_sound d2 x
    have d3 := fveq_sound d3 x
    have d4 := fveq_sound d4 x
    have d5 := fveq_sound d5 x
    have d6 := fveq_sound d6 x
    have d7 := fveq_sound d7 x
    have d8 := fveq_sound d8 x
    rw [map_toB he, map_frN he, ek, eo] at d1
    rw [map_toA he, ek, eo] at d2
    rw [map_toC he, ek, eo] at d3
    rw [map_toD he, ek, eo] at d4
    rw [map_toE he, ek, eo] at d5
    rw [map_toF he, ek, eo] at d6
    rw [map_toH he, ek] at d7
    rw [map_toG he, ek, eo] at d8
    have sA := (d1.joint _ _ _ _ _ _).trans d2
    have sC := (sA.joint _ _ _ _ _ _).trans d3
    have sD := (sC.joint _ _ _ _ _ _).trans d4
    have sE := (sC.joint _ _ _ _ _ _).trans d5
    have sF := (sE.joint _ _ _ _ _ _).trans d6
    have sH := (sC.joint _ _ _ _ _ _).trans d7
    have sG := (sH.joint _ _ _ _ _ _).trans d8
    exact ⟨sC, sD, sE, sF, sG⟩
  dsimp only
  rw [hf, (hg.centred _ _).inertia, (hg.centred _ _).weight, ← ek, ← eh, ← map_centred he, ← map_centred he,
    ← map_inertia5 he, ← map_weight5 he]
  refine ⟨?_, qeval x dynWeight4, qeval x dynWeight5, qeval x dynWeight7, qeval x dynWeight9, ?_, ?_⟩
  · obtain ⟨p, e1, e2⟩ := qeqO_some dyn_inertia x
    rw [← e2]
    exact (tpoly_sound (T := dyn) hp hc hs' _ (fun _ => h7) h dynRow dyn_reads _ e1).symm
  · have e := qeq_sound dyn_weight x
    rw [he.mul, he.add, he.add, he.add, he.mul, he.mul, he.mul, he.mul, hv _ (by decide +kernel),
      hv 6014 (by decide +kernel), hv 6015 (by decide +kernel), hv 6017 (by decide +kernel),
      hv 6019 (by decide +kernel)] at e
    exact e
  · have d := dyn_force
    simp only [Bool.and_eq_true] at d
    obtain ⟨⟨⟨d1, d2⟩, d3⟩, d4⟩ := d
    have d1 := qeq_sound d1 x
    have d2 := qeq_sound d2 x
    have d3 := qeq_sound d3 x
    have d4 := qeq_sound d4 x
    rw [he.add, he.add, he.mul, hv 753 (by decide +kernel), hv 5044 (by decide +kernel), hv 547 (by decide +kernel)] at d1
    rw [hv 754 (by decide +kernel), hv 5045 (by decide +kernel)] at d2
    rw [he.add, he.add, he.mul, hv 755 (by decide +kernel), hv 5046 (by decide +kernel), hv 548 (by decide +kernel)] at d3
    rw [he.add, he.add, hv 756 (by decide +kernel), hv 5047 (by decide +kernel), hv 407 (by decide +kernel)] at d4
    exact ⟨d1, d2, d3, d4⟩

end BP.EL
